import Verif.Spec.Imports

/-
Runs of the interpreter of `Model/Imports`: which names of Sionna a run asks for while Sionna is loading, and all states a session can reach.
-/
namespace OpenNTN

/-- The same installation, with a Sionna that has all names from the start. -/
def PyInstall.full (i : PyInstall) : PyInstall := { i with early := fun _ _ => true }

/-- Name of Sionna that the next step asks for while Sionna is loading. -/
def PyState.request (s : PyState) : List (SionnaModule × String) :=
  match s.sionna, s.jobs with
  | .loading, .exec _ (.fromSionna e (x :: _)) :: _ => [(e, x)]
  | _, _ => []

theorem step_full (i : PyInstall) (s : PyState) :
    i.step s = if ∀ q ∈ s.request, i.early q.1 q.2 = true then i.full.step s else .error .nameError := by
  rcases s with ⟨sio, started, bound, bases, jobs⟩
  rcases jobs with _ | ⟨j, rest⟩
  · cases sio <;> simp [PyInstall.step, PyState.request]
  rcases j with m | ⟨m, st⟩ | ⟨m, src, names⟩ | m | - | -
  · cases sio <;> simp [PyInstall.step, PyState.request, PyInstall.full]
  · rcases st with ⟨e, names⟩ | ⟨a, f, names⟩ | x | ⟨x, bs, uses⟩
    · rcases names with _ | ⟨x, xs⟩
      · cases sio <;> simp [PyInstall.step, PyState.request]
      · cases sio
        · simp [PyInstall.step, PyState.request]
        · cases h : i.early e x <;> simp [PyInstall.step, PyState.request, PyInstall.full, h]
        · simp [PyInstall.step, PyState.request]
    · cases sio <;> simp [PyInstall.step, PyState.request]
    · cases sio <;> simp [PyInstall.step, PyState.request]
    · cases sio <;> simp [PyInstall.step, PyState.request]
  · cases sio <;> simp [PyInstall.step, PyState.request]
  · cases sio <;> simp [PyInstall.step, PyState.request]
  · cases sio <;> simp [PyInstall.step, PyState.request, PyInstall.full]
    rfl
  · cases sio <;> simp [PyInstall.step, PyState.request]

/-- Names of Sionna that a run asks for while Sionna is loading. -/
def PyInstall.requests (i : PyInstall) : ℕ → PyState → List (SionnaModule × String)
  | 0, _ => []
  | n + 1, s => s.request ++ match i.full.step s with
    | .ok t => i.requests n t
    | .error _ => []

theorem run_full (i : PyInstall) (n : ℕ) (s t : PyState) :
    i.run n s = .ok t ↔ i.full.run n s = .ok t ∧ ∀ q ∈ i.requests n s, i.early q.1 q.2 = true := by
  induction n generalizing s with
  | zero => simp [PyInstall.run, PyInstall.requests]
  | succ n ih =>
    simp only [PyInstall.run, PyInstall.requests, step_full i s]
    rcases h : i.full.step s with e | u
    · split_ifs <;> simp [bind, Except.bind]
    · split_ifs with hq
      · simp only [bind, Except.bind, ih u, List.mem_append]
        exact ⟨fun ⟨a, b⟩ => ⟨a, fun q hq' => hq'.elim (hq q) (b q)⟩, fun ⟨a, b⟩ => ⟨a, fun q hq' => b q (Or.inr hq')⟩⟩
      · simp only [bind, Except.bind]
        refine iff_of_false (by simp) fun ⟨_, b⟩ => hq fun q hq' => b q (List.mem_append.2 (Or.inl hq'))

theorem run_done (i : PyInstall) (n : ℕ) {s : PyState} (h : s.jobs = []) : i.run n s = .ok s := by
  induction n with
  | zero => rfl
  | succ n ih => rw [PyInstall.run, show i.step s = .ok s by simp [PyInstall.step, h]]; exact ih

theorem run_add (i : PyInstall) (m n : ℕ) (s : PyState) : i.run (m + n) s = i.run m s >>= i.run n := by
  induction m generalizing s with
  | zero => simp [PyInstall.run, bind, Except.bind]
  | succ m ih =>
    rw [Nat.add_right_comm, PyInstall.run, PyInstall.run]
    rcases i.step s with e | t
    · rfl
    · exact ih t

/-- A run that has come to its end has asked for all it will ask for. -/
theorem requests_done (i : PyInstall) {n : ℕ} {s t : PyState} (h : i.full.run n s = .ok t) (ht : t.jobs = []) (m : ℕ) :
    ∀ q ∈ i.requests m s, q ∈ i.requests n s := by
  induction n generalizing s m with
  | zero =>
    simp only [PyInstall.run, Except.ok.injEq] at h
    subst h
    have : s.request = [] := by unfold PyState.request; rw [ht]; cases s.sionna <;> rfl
    induction m with
    | zero => simp [PyInstall.requests]
    | succ m ih =>
      have e : i.requests (m + 1) s = s.request ++ i.requests m s := by
        rw [PyInstall.requests, show i.full.step s = .ok s by simp [PyInstall.step, ht]]
      rw [e, this]
      exact ih
  | succ n ih =>
    cases m with
    | zero => simp [PyInstall.requests]
    | succ m =>
      rw [PyInstall.run] at h
      simp only [PyInstall.requests]
      rcases hs : i.full.step s with e | u
      · simp
      · rw [hs] at h
        intro q hq
        rw [List.mem_append] at hq ⊢
        exact hq.imp id (ih h m q)

/-- The end of a run does not depend on how long one waits. -/
theorem run_unique (i : PyInstall) {m n : ℕ} {s t u : PyState} (h1 : i.run m s = .ok t) (h2 : i.run n s = .ok u) (ht : t.jobs = [])
    (hu : u.jobs = []) : t = u := by
  rcases le_total m n with h | h
  · obtain ⟨k, rfl⟩ := Nat.exists_eq_add_of_le h
    rw [run_add, h1] at h2
    have := run_done i k ht
    simp only [bind, Except.bind, this, Except.ok.injEq] at h2
    exact h2
  · obtain ⟨k, rfl⟩ := Nat.exists_eq_add_of_le h
    rw [run_add, h2] at h1
    have := run_done i k hu
    simp only [bind, Except.bind, this, Except.ok.injEq] at h1
    exact h1.symm

/-- A run that comes to its end without an exception. -/
def ImportEnds (i : PyInstall) (s t : PyState) : Prop := ∃ n, i.run n s = .ok t ∧ t.jobs = []

theorem ends_step (i : PyInstall) (s t : PyState) : ImportEnds i s t ↔ ∃ u, i.step s = .ok u ∧ ImportEnds i u t := by
  constructor
  · rintro ⟨n, h, ht⟩
    cases n with
    | zero =>
      simp only [PyInstall.run, Except.ok.injEq] at h
      subst h
      exact ⟨s, by simp [PyInstall.step, ht], 0, rfl, ht⟩
    | succ n =>
      rw [PyInstall.run] at h
      rcases hs : i.step s with e | u
      · rw [hs] at h; cases h
      · rw [hs] at h; exact ⟨u, rfl, n, h, ht⟩
  · rintro ⟨u, hs, n, h, ht⟩
    exact ⟨n + 1, by rw [PyInstall.run, hs]; exact h, ht⟩

theorem ends_done (i : PyInstall) {s : PyState} (h : s.jobs = []) (t : PyState) : ImportEnds i s t ↔ t = s := by
  constructor
  · rintro ⟨n, hn, -⟩
    rw [run_done i n h] at hn
    exact (Except.ok.inj hn).symm
  · rintro rfl
    exact ⟨0, rfl, h⟩

theorem step_frame (i : PyInstall) (s : PyState) (j : PyJob) (js rest : List PyJob) :
    i.step { s with jobs := j :: js ++ rest } = (i.step { s with jobs := j :: js }).map fun t => { t with jobs := t.jobs ++ rest } := by
  rcases j with m | ⟨m, st⟩ | ⟨m, src, names⟩ | m | - | -
  · simp only [PyInstall.step, List.cons_append]
    split_ifs <;> simp [Except.map]
  · rcases st with ⟨e, names⟩ | ⟨a, f, names⟩ | x | ⟨x, bs, uses⟩
    · rcases names with _ | ⟨x, xs⟩ <;> simp only [PyInstall.step, List.cons_append] <;> split_ifs <;> simp [Except.map]
    · simp [PyInstall.step, Except.map]
    · have e : ∀ jobs, PyState.get { s with jobs := jobs } (m.1, PyFile.init) x = s.get (m.1, .init) x := fun _ => rfl
      simp only [PyInstall.step, List.cons_append, e]
      cases s.get (m.1, .init) x with
      | some o => simp [Except.map]
      | none => cases PyFile.submodules.find? (·.name = x) <;> simp [Except.map]
    · have e : ∀ jobs, PyState.get { s with jobs := jobs } m = s.get m := fun _ => rfl
      simp only [PyInstall.step, List.cons_append, e]
      cases bs.mapM (s.get m) <;> cases uses.mapM (s.get m) <;> simp [Except.map]
  · have e : ∀ jobs, PyState.get { s with jobs := jobs } src = s.get src := fun _ => rfl
    rcases names with _ | ⟨x, xs⟩
    · simp [PyInstall.step, Except.map]
    · simp only [PyInstall.step, List.cons_append, e]
      cases s.get src x <;> simp [Except.map]
  · simp [PyInstall.step, Except.map]
  · simp only [PyInstall.step, List.cons_append]
    split_ifs <;> simp [Except.map]
  · simp [PyInstall.step, Except.map]

/-- Doing one thing and then another. -/
theorem importEnds_append (i : PyInstall) (s t : PyState) (js rest : List PyJob) :
    ImportEnds i { s with jobs := js ++ rest } t ↔ ∃ u, ImportEnds i { s with jobs := js } u ∧ ImportEnds i { u with jobs := rest } t := by
  constructor
  · rintro ⟨n, h, ht⟩
    induction n generalizing s js with
    | zero =>
      simp only [PyInstall.run, Except.ok.injEq] at h
      subst h
      obtain ⟨rfl, rfl⟩ := List.append_eq_nil_iff.1 ht
      exact ⟨_, ⟨0, rfl, rfl⟩, 0, rfl, rfl⟩
    | succ n ih =>
      rcases js with _ | ⟨j, js⟩
      · exact ⟨_, ⟨0, rfl, rfl⟩, n + 1, h, ht⟩
      · rw [PyInstall.run, step_frame] at h
        rcases hs : i.step { s with jobs := j :: js } with e | u
        · rw [hs] at h; cases h
        · rw [hs] at h
          obtain ⟨v, hv, hv'⟩ := ih { u with jobs := [] } u.jobs h
          exact ⟨v, (ends_step i _ _).2 ⟨u, hs, hv⟩, hv'⟩
  · rintro ⟨u, ⟨n, h, hu⟩, hr⟩
    induction n generalizing s js with
    | zero =>
      simp only [PyInstall.run, Except.ok.injEq] at h
      subst h
      have : js = [] := hu
      subst this
      exact hr
    | succ n ih =>
      rcases js with _ | ⟨j, js⟩
      · rw [run_done i (n + 1) (s := { s with jobs := [] }) rfl] at h
        obtain rfl := Except.ok.inj h
        exact hr
      · rw [PyInstall.run] at h
        rcases hs : i.step { s with jobs := j :: js } with e | v
        · rw [hs] at h; cases h
        · rw [hs] at h
          refine (ends_step i _ _).2 ⟨{ v with jobs := v.jobs ++ rest }, ?_, ?_⟩
          · rw [step_frame, hs]; rfl
          · exact ih v v.jobs h

theorem import_started (i : PyInstall) {s : PyState} {m : PyModule} (hs : m.1 = .tr38811 → s.sionna ≠ .absent) (hm : m ∈ s.started) (t : PyState) :
    Spec.Import i s (.load m) t ↔ t = { s with jobs := [] } := by
  rw [show Spec.Import i s (.load m) t ↔ ImportEnds i { s with jobs := [.load m] } t from Iff.rfl, ends_step]
  have : i.step { s with jobs := [.load m] } = .ok { s with jobs := [] } := by
    simp only [PyInstall.step]
    rw [if_neg fun h => hs h.1 h.2, if_pos hm]
  simp only [this, Except.ok.injEq, exists_eq_left']
  exact ends_done i rfl t

theorem import_sionna (i : PyInstall) {s : PyState} (hs : s.sionna ≠ .absent) (t : PyState) :
    Spec.Import i s .loadSionna t ↔ t = { s with jobs := [] } := by
  rw [show Spec.Import i s .loadSionna t ↔ ImportEnds i { s with jobs := [.loadSionna] } t from Iff.rfl, ends_step]
  have : i.step { s with jobs := [.loadSionna] } = .ok { s with jobs := [] } := by
    simp only [PyInstall.step]
    rw [if_neg hs]
  simp only [this, Except.ok.injEq, exists_eq_left']
  exact ends_done i rfl t

/-- A submodule is imported after its package. -/
theorem import_submodule (i : PyInstall) {s : PyState} {m : PyModule} (hs : m.1 = .tr38811 → s.sionna ≠ .absent ∧ i.linked = true) (hf : m.2 ≠ .init)
    (hm : m ∉ s.started) (hi : (m.1, PyFile.init) ∉ s.started) (t : PyState) :
    Spec.Import i s (.load m) t ↔ ∃ u, Spec.Import i s (.load (m.1, .init)) u ∧ Spec.Import i u (.load m) t := by
  rw [show Spec.Import i s (.load m) t ↔ ImportEnds i { s with jobs := [.load m] } t from Iff.rfl, ends_step]
  have : i.step { s with jobs := [.load m] } = .ok { s with jobs := [.load (m.1, .init)] ++ [.load m] } := by
    simp only [PyInstall.step]
    rw [if_neg fun h => (hs h.1).1 h.2, if_neg hm, if_neg fun h => absurd ((hs h.1).2.symm.trans h.2) (by decide), if_pos ⟨hf, hi⟩]
    rfl
  simp only [this, Except.ok.injEq, exists_eq_left']
  exact importEnds_append i s t _ _

/-- A module below Sionna is imported after Sionna. -/
theorem import_below (i : PyInstall) {s : PyState} {f : PyFile} (hs : s.sionna = .absent) (t : PyState) :
    Spec.Import i s (.load (.tr38811, f)) t ↔ ∃ u, Spec.Import i s .loadSionna u ∧ Spec.Import i u (.load (.tr38811, f)) t := by
  rw [show Spec.Import i s (.load (.tr38811, f)) t ↔ ImportEnds i { s with jobs := [.load (.tr38811, f)] } t from Iff.rfl, ends_step]
  have : i.step { s with jobs := [.load (.tr38811, f)] } = .ok { s with jobs := [.loadSionna] ++ [.load (.tr38811, f)] } := by
    simp only [PyInstall.step]
    rw [if_pos ⟨trivial, hs⟩]
    rfl
  simp only [this, Except.ok.injEq, exists_eq_left']
  exact importEnds_append i s t _ _

/-- An import with a real Sionna, from one with a Sionna that has all names. -/
theorem import_full (i : PyInstall) {s t : PyState} {e : PyJob} {n : ℕ} (h : i.full.run n { s with jobs := [e] } = .ok t) (ht : t.jobs = []) (u : PyState) :
    Spec.Import i s e u ↔ u = t ∧ ∀ q ∈ i.requests n { s with jobs := [e] }, i.early q.1 q.2 = true := by
  constructor
  · rintro ⟨m, hm, hu⟩
    rw [run_full] at hm
    exact ⟨run_unique i.full hm.1 h hu ht, fun q hq => hm.2 q (requests_done i hm.1 hu n q hq)⟩
  · rintro ⟨rfl, hq⟩
    exact ⟨n, (run_full i n _ _).2 ⟨h, hq⟩, ht⟩

/-! ### Reachable states -/

/-- State after an import with a Sionna that has all names. -/
def importAll (hooked : Bool) (s : PyState) (e : PyJob) : PyState :=
  ((⟨true, hooked, fun _ _ => true⟩ : PyInstall).run 600 { s with jobs := [e] }).toOption.getD s

/-- After the import of Sionna. -/
def afterSionna (hooked : Bool) : PyState := importAll hooked (.fresh []) .loadSionna

/-- After the import of the linked package. -/
def afterLinked (hooked : Bool) : PyState := importAll hooked (afterSionna hooked) (.load (.tr38811, .init))

/-- After the import of the package under its own name, as the first thing, after Sionna, and after the linked package. -/
def afterOwn (hooked : Bool) : PyState := importAll hooked (.fresh []) (.load (.openNTN, .init))

def afterSionnaOwn (hooked : Bool) : PyState := importAll hooked (afterSionna hooked) (.load (.openNTN, .init))

def afterLinkedOwn (hooked : Bool) : PyState := importAll hooked (afterLinked hooked) (.load (.openNTN, .init))

/-- The import ends in the state computed and asks for names of the list only. -/
def importCheck (hooked : Bool) (s : PyState) (e : PyJob) (t : PyState) : Bool :=
  decide ((⟨true, hooked, fun _ _ => true⟩ : PyInstall).run 600 { s with jobs := [e] } = .ok t) && t.jobs.isEmpty

/-- All modules of a copy of the package are in `sys.modules` and it is complete. -/
def rootCheck (s : PyState) (r : Root) : Bool :=
  (PyFile.init :: PyFile.submodules).all (fun f => decide ((r, f) ∈ s.started)) && decide (Spec.complete s r)

/-- Scenarios of a copy of the package accept arrays of that copy only. -/
def acceptCheck (s : PyState) (r : Root) : Bool :=
  Spec.arrayClasses.all fun a => Spec.arrayClasses.all fun b => [Root.openNTN, .tr38811].all fun r1 => [Root.openNTN, .tr38811].all fun r2 =>
    s.acceptsArrays r (.defined (r1, .antenna) a) (.defined (r2, .antenna) b) == (decide (r1 = r) && decide (r2 = r))

set_option maxRecDepth 100000 in
theorem check_accept : acceptCheck (afterSionna true) .tr38811 = true ∧ acceptCheck (afterOwn true) .tr38811 = true ∧
    acceptCheck (afterOwn true) .openNTN = true ∧ acceptCheck (afterSionnaOwn true) .tr38811 = true ∧
    acceptCheck (afterSionnaOwn true) .openNTN = true ∧ ¬ Spec.complete (afterSionna true) .openNTN := by
  decide +kernel

set_option maxRecDepth 100000 in
theorem check_plain_accept : acceptCheck (afterLinked false) .tr38811 = true ∧ acceptCheck (afterOwn false) .tr38811 = true ∧
    acceptCheck (afterOwn false) .openNTN = true ∧ acceptCheck (afterSionnaOwn false) .tr38811 = true ∧
    acceptCheck (afterSionnaOwn false) .openNTN = true ∧ acceptCheck (afterLinkedOwn false) .tr38811 = true ∧
    acceptCheck (afterLinkedOwn false) .openNTN = true ∧ ¬ Spec.complete (afterLinked false) .openNTN ∧
    ¬ Spec.complete (afterSionna false) .openNTN ∧ ¬ Spec.complete (afterSionna false) .tr38811 := by
  decide +kernel

set_option maxRecDepth 100000 in
theorem check_sionna : importCheck true (.fresh []) .loadSionna (afterSionna true) = true ∧ rootCheck (afterSionna true) .tr38811 = true ∧
    (afterSionna true).sionna = .loaded ∧ (afterSionna true).started.all (fun m => decide (m.1 = .tr38811)) = true ∧
    Spec.sionnaNames.all (· ∈ (⟨true, true, fun _ _ => true⟩ : PyInstall).requests 600 (.fresh [.loadSionna])) = true ∧
    ((⟨true, true, fun _ _ => true⟩ : PyInstall).requests 600 (.fresh [.loadSionna])).all (· ∈ Spec.sionnaNames) = true := by
  decide +kernel

set_option maxRecDepth 100000 in
theorem check_own : importCheck true (.fresh []) (.load (.openNTN, .init)) (afterOwn true) = true ∧ rootCheck (afterOwn true) .tr38811 = true ∧
    rootCheck (afterOwn true) .openNTN = true ∧ (afterOwn true).sionna = .loaded ∧
    Spec.sionnaNames.all (· ∈ (⟨true, true, fun _ _ => true⟩ : PyInstall).requests 600 (.fresh [.load (.openNTN, .init)])) = true ∧
    ((⟨true, true, fun _ _ => true⟩ : PyInstall).requests 600 (.fresh [.load (.openNTN, .init)])).all (· ∈ Spec.sionnaNames) = true := by
  decide +kernel

set_option maxRecDepth 100000 in
theorem check_sionna_own : importCheck true (afterSionna true) (.load (.openNTN, .init)) (afterSionnaOwn true) = true ∧
    rootCheck (afterSionnaOwn true) .tr38811 = true ∧ rootCheck (afterSionnaOwn true) .openNTN = true ∧ (afterSionnaOwn true).sionna = .loaded ∧
    (⟨true, true, fun _ _ => true⟩ : PyInstall).requests 600 { afterSionna true with jobs := [.load (.openNTN, .init)] } = [] := by
  decide +kernel

set_option maxRecDepth 100000 in
theorem check_plain : importCheck false (.fresh []) .loadSionna (afterSionna false) = true ∧ (afterSionna false).sionna = .loaded ∧
    (afterSionna false).started = [] ∧ (⟨true, false, fun _ _ => true⟩ : PyInstall).requests 600 (.fresh [.loadSionna]) = [] ∧
    importCheck false (afterSionna false) (.load (.tr38811, .init)) (afterLinked false) = true ∧ (afterLinked false).sionna = .loaded ∧
    rootCheck (afterLinked false) .tr38811 = true ∧ (afterLinked false).started.all (fun m => decide (m.1 = .tr38811)) = true ∧
    (⟨true, false, fun _ _ => true⟩ : PyInstall).requests 600 { afterSionna false with jobs := [.load (.tr38811, .init)] } = [] := by
  decide +kernel

set_option maxRecDepth 100000 in
theorem check_plain_own : importCheck false (.fresh []) (.load (.openNTN, .init)) (afterOwn false) = true ∧
    rootCheck (afterOwn false) .tr38811 = true ∧ rootCheck (afterOwn false) .openNTN = true ∧ (afterOwn false).sionna = .loaded ∧
    (⟨true, false, fun _ _ => true⟩ : PyInstall).requests 600 (.fresh [.load (.openNTN, .init)]) = [] := by
  decide +kernel

set_option maxRecDepth 100000 in
theorem check_plain_sionna_own : importCheck false (afterSionna false) (.load (.openNTN, .init)) (afterSionnaOwn false) = true ∧
    rootCheck (afterSionnaOwn false) .tr38811 = true ∧ rootCheck (afterSionnaOwn false) .openNTN = true ∧ (afterSionnaOwn false).sionna = .loaded ∧
    (⟨true, false, fun _ _ => true⟩ : PyInstall).requests 600 { afterSionna false with jobs := [.load (.openNTN, .init)] } = [] := by
  decide +kernel

set_option maxRecDepth 100000 in
theorem check_plain_linked_own : importCheck false (afterLinked false) (.load (.openNTN, .init)) (afterLinkedOwn false) = true ∧
    rootCheck (afterLinkedOwn false) .tr38811 = true ∧ rootCheck (afterLinkedOwn false) .openNTN = true ∧ (afterLinkedOwn false).sionna = .loaded ∧
    (⟨true, false, fun _ _ => true⟩ : PyInstall).requests 600 { afterLinked false with jobs := [.load (.openNTN, .init)] } = [] := by
  decide +kernel

attribute [irreducible] importCheck rootCheck acceptCheck importAll afterSionna afterLinked afterOwn afterSionnaOwn afterLinkedOwn

theorem requests_full (i : PyInstall) (n : ℕ) (s : PyState) : i.requests n s = i.full.requests n s := by
  induction n generalizing s with
  | zero => rfl
  | succ n ih =>
    simp only [PyInstall.requests]
    have : i.full.full = i.full := rfl
    rw [this]
    cases i.full.step s with
    | error e => rfl
    | ok t => simp only [ih t]

/-- An import that has been computed, for any Sionna. -/
theorem import_checked (i : PyInstall) (hl : i.linked = true) {s t : PyState} {e : PyJob} (h : importCheck i.hooked s e t = true) (u : PyState) :
    Spec.Import i s e u ↔ u = t ∧ ∀ q ∈ (⟨true, i.hooked, fun _ _ => true⟩ : PyInstall).requests 600 { s with jobs := [e] }, i.early q.1 q.2 = true := by
  have hi : i.full = ⟨true, i.hooked, fun _ _ => true⟩ := by
    cases i; simp only at hl; subst hl; rfl
  simp only [importCheck, Bool.and_eq_true, decide_eq_true_eq, List.isEmpty_iff] at h
  rw [← hi] at h ⊢
  rw [import_full i h.1 h.2, requests_full]

theorem root_started {s : PyState} {r : Root} (h : rootCheck s r = true) (f : PyFile) : (r, f) ∈ s.started := by
  simp only [rootCheck, Bool.and_eq_true, List.all_eq_true, decide_eq_true_eq] at h
  refine h.1 f ?_
  cases f <;> decide

theorem root_complete {s : PyState} {r : Root} (h : rootCheck s r = true) : Spec.complete s r := by
  simp only [rootCheck, Bool.and_eq_true, decide_eq_true_eq] at h
  exact h.2

theorem userImports_cases {e : PyJob} (h : e ∈ Spec.userImports) : e = .loadSionna ∨ ∃ r f, e = .load (r, f) := by
  simp only [Spec.userImports, List.mem_cons, List.mem_flatMap] at h
  rcases h with h | ⟨f, -, h⟩
  · exact Or.inl h
  · simp only [List.mem_cons, List.not_mem_nil, or_false] at h
    exact Or.inr (h.elim (fun h => ⟨_, _, h⟩) fun h => ⟨_, _, h⟩)

/-- Both copies of the package have been imported. -/
def BothLoaded (s : PyState) : Prop :=
  s.jobs = [] ∧ s.sionna = .loaded ∧ (∀ r, rootCheck s r = true) ∧ ∀ r, acceptCheck s r = true

/-- Only the linked copy has been imported. -/
def LinkedLoaded (s : PyState) : Prop :=
  s.jobs = [] ∧ s.sionna = .loaded ∧ rootCheck s .tr38811 = true ∧ acceptCheck s .tr38811 = true ∧
    s.started.all (fun m => decide (m.1 = .tr38811)) = true

theorem with_jobs {s : PyState} (h : s.jobs = []) : { s with jobs := [] } = s := by
  cases s; simp only at h; subst h; rfl

theorem both_import (i : PyInstall) {s : PyState} (h : BothLoaded s) {e : PyJob} (he : e ∈ Spec.userImports) (t : PyState) :
    Spec.Import i s e t ↔ t = s := by
  obtain ⟨h1, h2, h3, -⟩ := h
  rcases userImports_cases he with rfl | ⟨r, f, rfl⟩
  · rw [import_sionna i (by rw [h2]; decide), with_jobs h1]
  · rw [import_started i (fun _ => by rw [h2]; decide) (root_started (h3 r) f), with_jobs h1]

/-- From a state in which the copy with its own name has not been started. -/
theorem own_import (i : PyInstall) (hl : i.linked = true) {s t : PyState} 
    (hs : s.started.all (fun m => decide (m.1 = .tr38811)) = true)
    (hc : importCheck i.hooked s (.load (.openNTN, .init)) t = true) (ht : BothLoaded t) (f : PyFile) (u : PyState) :
    Spec.Import i s (.load (.openNTN, f)) u ↔
      u = t ∧ ∀ q ∈ (⟨true, i.hooked, fun _ _ => true⟩ : PyInstall).requests 600 { s with jobs := [.load (.openNTN, .init)] }, i.early q.1 q.2 = true := by
  have hs' : ∀ f, (.openNTN, f) ∉ s.started := fun f hf => by
    have := List.all_eq_true.1 hs _ hf
    simp at this
  by_cases hf : f = .init
  · subst hf
    exact import_checked i hl hc u
  · rw [import_submodule i (fun h => by cases h) hf (hs' f) (hs' _)]
    simp only [import_checked i hl hc]
    constructor
    · rintro ⟨v, ⟨rfl, hq⟩, hv⟩
      rw [import_started i (fun h => by cases h) (root_started (ht.2.2.1 _) f), with_jobs ht.1] at hv
      exact ⟨hv, hq⟩
    · rintro ⟨rfl, hq⟩
      exact ⟨u, ⟨rfl, hq⟩, (import_started i (fun h => by cases h) (root_started (ht.2.2.1 _) f) u).2 (with_jobs ht.1).symm⟩

end OpenNTN
