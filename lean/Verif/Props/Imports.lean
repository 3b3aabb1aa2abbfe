import Verif.Lemmas.Imports

/-
C171: the installed package can be imported. C172: classes under the two names of the package. C173: the package on its own.
-/
namespace OpenNTN

open Spec

theorem both_own : BothLoaded (afterOwn true) ∧ BothLoaded (afterSionnaOwn true) ∧ BothLoaded (afterOwn false) ∧ BothLoaded (afterSionnaOwn false) ∧
    BothLoaded (afterLinkedOwn false) := by
  have key : ∀ {h s e t}, importCheck h s e t = true → t.jobs = [] := by
    intro h s e t hc
    simp only [importCheck, Bool.and_eq_true, List.isEmpty_iff] at hc
    exact hc.2
  obtain ⟨a1, a2, a3, a4, -⟩ := check_own
  obtain ⟨b1, b2, b3, b4, -⟩ := check_sionna_own
  obtain ⟨c1, c2, c3, c4, -⟩ := check_plain_own
  obtain ⟨d1, d2, d3, d4, -⟩ := check_plain_sionna_own
  obtain ⟨e1, e2, e3, e4, -⟩ := check_plain_linked_own
  obtain ⟨-, f1, f2, f3, f4, -⟩ := check_accept
  obtain ⟨-, g1, g2, g3, g4, g5, g6, -⟩ := check_plain_accept
  refine ⟨⟨key a1, a4, ?_, ?_⟩, ⟨key b1, b4, ?_, ?_⟩, ⟨key c1, c4, ?_, ?_⟩, ⟨key d1, d4, ?_, ?_⟩, ⟨key e1, e4, ?_, ?_⟩⟩ <;> intro r <;> cases r <;>
    assumption

theorem linked_loaded : LinkedLoaded (afterSionna true) ∧ LinkedLoaded (afterLinked false) := by
  have key : ∀ {h s e t}, importCheck h s e t = true → t.jobs = [] := by
    intro h s e t hc
    simp only [importCheck, Bool.and_eq_true, List.isEmpty_iff] at hc
    exact hc.2
  obtain ⟨a1, a2, a3, a4, -⟩ := check_sionna
  obtain ⟨-, -, -, -, b1, b2, b3, b4, -⟩ := check_plain
  exact ⟨⟨key a1, a3, a2, check_accept.1, a4⟩, ⟨key b1, b2, b3, check_plain_accept.1, b4⟩⟩

theorem names_iff {early : SionnaModule → String → Bool} {l : List (SionnaModule × String)} (h1 : sionnaNames.all (· ∈ l) = true)
    (h2 : l.all (· ∈ sionnaNames) = true) : (∀ q ∈ l, early q.1 q.2 = true) ↔ ∀ q ∈ sionnaNames, early q.1 q.2 = true := by
  simp only [List.all_eq_true, decide_eq_true_eq] at h1 h2
  exact ⟨fun h q hq => h q (h1 q hq), fun h q hq => h q (h2 q hq)⟩

open Classical in
/-- Imports when only the linked copy has been imported. -/
theorem linked_import (i : PyInstall) (hl : i.linked = true) {s t : PyState} (hs : LinkedLoaded s)
    (hc : importCheck i.hooked s (.load (.openNTN, .init)) t = true) (ht : BothLoaded t)
    (hr : (⟨true, i.hooked, fun _ _ => true⟩ : PyInstall).requests 600 { s with jobs := [.load (.openNTN, .init)] } = []) {e : PyJob}
    (he : e ∈ userImports) (u : PyState) : Import i s e u ↔ u = if ∃ f, e = .load (.openNTN, f) then t else s := by
  obtain ⟨h1, h2, h3, -, h5⟩ := hs
  rcases userImports_cases he with rfl | ⟨r, f, rfl⟩
  · rw [import_sionna i (by rw [h2]; decide), with_jobs h1, if_neg (by rintro ⟨f, hf⟩; cases hf)]
  · cases r with
    | openNTN =>
      rw [own_import i hl h5 hc ht, hr, if_pos ⟨f, rfl⟩]
      simp
    | tr38811 =>
      rw [import_started i (fun _ => by rw [h2]; decide) (root_started h3 f), with_jobs h1, if_neg (by rintro ⟨g, hg⟩; cases hg)]

open Classical in
/-- First import, with the inserted line. -/
theorem first_import (i : PyInstall) (hl : i.linked = true) (hh : i.hooked = true) {e : PyJob} (he : e ∈ userImports) (u : PyState) :
    Import i (.fresh []) e u ↔
      (u = if ∃ f, e = .load (.openNTN, f) then afterOwn true else afterSionna true) ∧ ∀ q ∈ sionnaNames, i.early q.1 q.2 = true := by
  obtain ⟨a1, -, a3, -, a5, a6⟩ := check_sionna
  obtain ⟨b1, -, -, -, b5, b6⟩ := check_own
  have hS : ∀ u, Import i (.fresh []) .loadSionna u ↔ u = afterSionna true ∧ ∀ q ∈ sionnaNames, i.early q.1 q.2 = true := by
    intro u
    rw [import_checked i hl (t := afterSionna true) (by rw [hh]; exact a1), hh]
    exact and_congr_right fun _ => names_iff a5 a6
  rcases userImports_cases he with rfl | ⟨r, f, rfl⟩
  · rw [hS, if_neg (by rintro ⟨f, hf⟩; cases hf)]
  · cases r with
    | openNTN =>
      rw [own_import i hl (t := afterOwn true) rfl (by rw [hh]; exact b1) both_own.1, if_pos ⟨f, rfl⟩, hh]
      exact and_congr_right fun _ => names_iff b5 b6
    | tr38811 =>
      rw [import_below i rfl, if_neg (by rintro ⟨g, hg⟩; cases hg)]
      have h1 := linked_loaded.1
      have hT : ∀ v, Import i (afterSionna true) (.load (.tr38811, f)) v ↔ v = afterSionna true := fun v => by
        rw [import_started i (fun _ => by rw [a3]; decide) (root_started h1.2.2.1 f), with_jobs h1.1]
      simp only [hS]
      constructor
      · rintro ⟨v, ⟨rfl, hq⟩, hv⟩
        exact ⟨(hT _).1 hv, hq⟩
      · rintro ⟨rfl, hq⟩
        exact ⟨_, ⟨rfl, hq⟩, (hT _).2 rfl⟩

/-- Import of the linked copy after Sionna, without the inserted line. -/
theorem plain_linked (i : PyInstall) (hl : i.linked = true) (hh : i.hooked = false) (f : PyFile) (u : PyState) :
    Import i (afterSionna false) (.load (.tr38811, f)) u ↔ u = afterLinked false := by
  obtain ⟨-, a2, a3, -, a5, -, -, -, a9⟩ := check_plain
  have h1 := linked_loaded.2
  have hI : ∀ u, Import i (afterSionna false) (.load (.tr38811, .init)) u ↔ u = afterLinked false := fun u => by
    rw [import_checked i hl (t := afterLinked false) (by rw [hh]; exact a5), hh, a9]
    simp
  by_cases hf : f = .init
  · subst hf
    exact hI u
  · rw [import_submodule i (fun _ => ⟨by rw [a2]; decide, hl⟩) hf (by rw [a3]; simp) (by rw [a3]; simp)]
    simp only [hI, exists_eq_left]
    rw [import_started i (fun _ => by rw [h1.2.1]; decide) (root_started h1.2.2.1 f), with_jobs h1.1]

open Classical in
/-- Import when nothing but Sionna has been imported, without the inserted line. -/
theorem plain_sionna (i : PyInstall) (hl : i.linked = true) (hh : i.hooked = false) {e : PyJob} (he : e ∈ userImports) (u : PyState) :
    Import i (afterSionna false) e u ↔ u = if ∃ f, e = .load (.openNTN, f) then afterSionnaOwn false else
      if ∃ f, e = .load (.tr38811, f) then afterLinked false else afterSionna false := by
  obtain ⟨a1, a2, a3, -⟩ := check_plain
  obtain ⟨b1, -, -, -, b5⟩ := check_plain_sionna_own
  rcases userImports_cases he with rfl | ⟨r, f, rfl⟩
  · rw [import_sionna i (by rw [a2]; decide), if_neg (by rintro ⟨f, hf⟩; cases hf), if_neg (by rintro ⟨f, hf⟩; cases hf), with_jobs]
    simp only [importCheck, Bool.and_eq_true, List.isEmpty_iff] at a1
    exact a1.2
  · cases r with
    | openNTN =>
      rw [own_import i hl (t := afterSionnaOwn false) (by rw [a3]; rfl) (by rw [hh]; exact b1) both_own.2.2.2.1, if_pos ⟨f, rfl⟩, hh, b5]
      simp
    | tr38811 => rw [plain_linked i hl hh, if_neg (by rintro ⟨g, hg⟩; cases hg), if_pos ⟨f, rfl⟩]

open Classical in
/-- First import, without the inserted line. -/
theorem plain_first (i : PyInstall) (hl : i.linked = true) (hh : i.hooked = false) {e : PyJob} (he : e ∈ userImports) (u : PyState) :
    Import i (.fresh []) e u ↔ u = if ∃ f, e = .load (.openNTN, f) then afterOwn false else
      if ∃ f, e = .load (.tr38811, f) then afterLinked false else afterSionna false := by
  obtain ⟨a1, -, -, a4, -⟩ := check_plain
  obtain ⟨b1, -, -, -, b5⟩ := check_plain_own
  have hS : ∀ u, Import i (.fresh []) .loadSionna u ↔ u = afterSionna false := fun u => by
    rw [import_checked i hl (t := afterSionna false) (by rw [hh]; exact a1), hh]
    have : (⟨true, false, fun _ _ => true⟩ : PyInstall).requests 600 { PyState.fresh [] with jobs := [.loadSionna] } = [] := a4
    rw [this]
    simp
  rcases userImports_cases he with rfl | ⟨r, f, rfl⟩
  · rw [hS, if_neg (by rintro ⟨f, hf⟩; cases hf), if_neg (by rintro ⟨f, hf⟩; cases hf)]
  · cases r with
    | openNTN =>
      rw [own_import i hl (t := afterOwn false) rfl (by rw [hh]; exact b1) both_own.2.2.1, if_pos ⟨f, rfl⟩, hh]
      have : (⟨true, false, fun _ _ => true⟩ : PyInstall).requests 600 { PyState.fresh [] with jobs := [.load (.openNTN, .init)] } = [] := b5
      rw [this]
      simp
    | tr38811 =>
      rw [import_below i rfl, if_neg (by rintro ⟨g, hg⟩; cases hg), if_pos ⟨f, rfl⟩]
      simp only [hS, exists_eq_left]
      exact plain_linked i hl hh f u

/-- What a session has imported. -/
def Reached (i : PyInstall) (l : List PyJob) (s : PyState) : Prop :=
  (l = [] ∧ s = .fresh []) ∨ (i.hooked = true → ∀ q ∈ sionnaNames, i.early q.1 q.2 = true) ∧
    ((i.hooked = false ∧ s = afterSionna false ∧ ∀ e ∈ l, e = .loadSionna) ∨
      ((s = afterSionna true ∧ i.hooked = true ∨ s = afterLinked false ∧ i.hooked = false) ∧ ∀ e ∈ l, ∀ f, e ≠ .load (.openNTN, f)) ∨ BothLoaded s)

open Classical in
theorem reached_next (i : PyInstall) (hl : i.linked = true) {l : List PyJob} {s : PyState} (h : Reached i l s) {e : PyJob} (he : e ∈ userImports) :
    (∀ t, Import i s e t → Reached i (e :: l) t) ∧ ((l = [] → i.hooked = true → ∀ q ∈ sionnaNames, i.early q.1 q.2 = true) → ∃ t, Import i s e t) := by
  have hno : ∀ f, .loadSionna ≠ PyJob.load (.openNTN, f) := fun f hf => by cases hf
  rcases h with ⟨rfl, rfl⟩ | ⟨hq, ⟨hh, rfl, hall⟩ | ⟨⟨rfl, hh⟩ | ⟨rfl, hh⟩, hall⟩ | hb⟩
  · cases hh : i.hooked with
    | true =>
      refine ⟨fun t ht => ?_, fun hq => ⟨_, (first_import i hl hh he _).2 ⟨rfl, hq rfl rfl⟩⟩⟩
      obtain ⟨rfl, hq⟩ := (first_import i hl hh he t).1 ht
      refine Or.inr ⟨fun _ => hq, Or.inr ?_⟩
      split_ifs with hf
      · exact Or.inr both_own.1
      · exact Or.inl ⟨Or.inl ⟨rfl, hh⟩, fun e' he' f hf' => by
          obtain rfl := List.mem_singleton.1 he'
          exact hf ⟨f, hf'⟩⟩
    | false =>
      refine ⟨fun t ht => ?_, fun _ => ⟨_, (plain_first i hl hh he _).2 rfl⟩⟩
      obtain rfl := (plain_first i hl hh he t).1 ht
      refine Or.inr ⟨fun h => absurd (hh.symm.trans h) (by decide), ?_⟩
      split_ifs with hf hg
      · exact Or.inr (Or.inr both_own.2.2.1)
      · exact Or.inr (Or.inl ⟨Or.inr ⟨rfl, hh⟩, fun e' he' f hf' => by
          obtain rfl := List.mem_singleton.1 he'
          exact hf ⟨f, hf'⟩⟩)
      · refine Or.inl ⟨hh, rfl, fun e' he' => ?_⟩
        obtain rfl := List.mem_singleton.1 he'
        rcases userImports_cases he with h | ⟨r, f, rfl⟩
        · exact h
        · cases r with
          | openNTN => exact absurd ⟨f, rfl⟩ hf
          | tr38811 => exact absurd ⟨f, rfl⟩ hg
  · refine ⟨fun t ht => ?_, fun _ => ⟨_, (plain_sionna i hl hh he _).2 rfl⟩⟩
    obtain rfl := (plain_sionna i hl hh he t).1 ht
    refine Or.inr ⟨hq, ?_⟩
    split_ifs with hf hg
    · exact Or.inr (Or.inr both_own.2.2.2.1)
    · refine Or.inr (Or.inl ⟨Or.inr ⟨rfl, hh⟩, fun e' he' f hf' => ?_⟩)
      rcases List.mem_cons.1 he' with rfl | h
      · exact hf ⟨f, hf'⟩
      · exact hno f ((hall _ h).symm.trans hf')
    · refine Or.inl ⟨hh, rfl, fun e' he' => ?_⟩
      rcases List.mem_cons.1 he' with rfl | h
      · rcases userImports_cases he with h | ⟨r, f, rfl⟩
        · exact h
        · cases r with
          | openNTN => exact absurd ⟨f, rfl⟩ hf
          | tr38811 => exact absurd ⟨f, rfl⟩ hg
      · exact hall _ h
  · obtain ⟨b1, -, -, -, b5⟩ := check_sionna_own
    have key := fun u => linked_import i hl linked_loaded.1 (t := afterSionnaOwn true) (by rw [hh]; exact b1) both_own.2.1 (by rw [hh]; exact b5) he u
    refine ⟨fun t ht => ?_, fun _ => ⟨_, (key _).2 rfl⟩⟩
    obtain rfl := (key t).1 ht
    refine Or.inr ⟨hq, Or.inr ?_⟩
    split_ifs with hf
    · exact Or.inr both_own.2.1
    · refine Or.inl ⟨Or.inl ⟨rfl, hh⟩, fun e' he' f hf' => ?_⟩
      rcases List.mem_cons.1 he' with rfl | h
      · exact hf ⟨f, hf'⟩
      · exact hall _ h f hf'
  · obtain ⟨b1, -, -, -, b5⟩ := check_plain_linked_own
    have key := fun u => linked_import i hl linked_loaded.2 (t := afterLinkedOwn false) (by rw [hh]; exact b1) both_own.2.2.2.2 (by rw [hh]; exact b5) he u
    refine ⟨fun t ht => ?_, fun _ => ⟨_, (key _).2 rfl⟩⟩
    obtain rfl := (key t).1 ht
    refine Or.inr ⟨hq, Or.inr ?_⟩
    split_ifs with hf
    · exact Or.inr both_own.2.2.2.2
    · refine Or.inl ⟨Or.inr ⟨rfl, hh⟩, fun e' he' f hf' => ?_⟩
      rcases List.mem_cons.1 he' with rfl | h
      · exact hf ⟨f, hf'⟩
      · exact hall _ h f hf'
  · refine ⟨fun t ht => ?_, fun _ => ⟨_, (both_import i hb he _).2 rfl⟩⟩
    obtain rfl := (both_import i hb he t).1 ht
    exact Or.inr ⟨hq, Or.inr (Or.inr hb)⟩

theorem session_reached (i : PyInstall) (hl : i.linked = true) {l : List PyJob} {s : PyState} (h : Session i l s) : Reached i l s := by
  induction h with
  | start => exact Or.inl ⟨rfl, rfl⟩
  | next _ he ht ih => exact (reached_next i hl ih he).1 _ ht

/-- C171. After installation, the package can be imported under both names, any of its modules first, in any order and mixed with imports of
Sionna, exactly if Sionna has the names the package needs when Python reaches the inserted line. Without the inserted line no such condition
is needed. After the import, the package has all classes and modules that it offers; with the inserted line, importing Sionna is enough. -/
theorem C171_imports (i : PyInstall) (hl : i.linked = true) :
    (∀ l, (∀ e ∈ l, e ∈ userImports) →
      ((∃ s, Session i l s) ↔ (l ≠ [] → i.hooked = true → ∀ q ∈ sionnaNames, i.early q.1 q.2 = true))) ∧
    ∀ l s, Session i l s → ∀ e ∈ l, (∀ r f, e = .load (r, f) → complete s r) ∧ (i.hooked = true → complete s .tr38811) := by
  refine ⟨fun l hall => ⟨fun ⟨s, hs⟩ hne hh => ?_, fun hq => ?_⟩, fun l s hs e he => ?_⟩
  · rcases session_reached i hl hs with ⟨h, -⟩ | ⟨h, -⟩
    · exact absurd h hne
    · exact h hh
  · induction l with
    | nil => exact ⟨_, .start⟩
    | cons e l ih =>
      have hq' := hq (by simp)
      obtain ⟨s, hs⟩ := ih (fun e he => hall e (List.mem_cons_of_mem _ he)) fun _ => hq'
      obtain ⟨t, ht⟩ := (reached_next i hl (session_reached i hl hs) (hall e (by simp))).2 fun _ => hq'
      exact ⟨t, .next hs (hall e (by simp)) ht⟩
  · rcases session_reached i hl hs with ⟨rfl, -⟩ | ⟨-, ⟨hh, -, h⟩ | ⟨h1, h⟩ | hb⟩
    · cases he
    · refine ⟨fun r f hf => ?_, fun h' => by rw [hh] at h'; cases h'⟩
      rw [h e he] at hf
      cases hf
    · have hc : complete s .tr38811 := by
        rcases h1 with ⟨rfl, -⟩ | ⟨rfl, -⟩
        · exact root_complete linked_loaded.1.2.2.1
        · exact root_complete linked_loaded.2.2.2.1
      refine ⟨fun r f hf => ?_, fun _ => hc⟩
      cases r with
      | openNTN => exact absurd hf (h e he f)
      | tr38811 => exact hc
    · exact ⟨fun r f _ => root_complete (hb.2.2.1 r), fun _ => root_complete (hb.2.2.1 _)⟩

/-- An installation with and one without the inserted line; what a user imports. -/
example : (⟨true, true, fun e x => (e, x) ∈ sionnaNames⟩ : PyInstall).linked = true ∧
    (∀ q ∈ sionnaNames, (⟨true, true, fun e x => (e, x) ∈ sionnaNames⟩ : PyInstall).early q.1 q.2 = true) ∧
    ∀ e ∈ [PyJob.load (.openNTN, .utils), .loadSionna, .load (.tr38811, .cdl)], e ∈ userImports := by
  decide

/-! ### C172 -/

/-- C172. It does not matter under which name the package is imported: scenarios accept the arrays of the package. -/
def C172_statement : Prop :=
  ∀ (i : PyInstall) (l : List PyJob) (s : PyState), i.linked = true → Session i l s → ∀ r r1 r2 : Root, complete s r → complete s r1 →
    complete s r2 → ∀ a ∈ arrayClasses, ∀ b ∈ arrayClasses, s.acceptsArrays r (.defined (r1, .antenna) a) (.defined (r2, .antenna) b) = true

theorem complete_not_fresh (r : Root) : ¬ complete (.fresh []) r := by cases r <;> decide

theorem acceptsArrays_iff {s : PyState} {r : Root} (h : acceptCheck s r = true) (r1 r2 : Root) {a b : String} (ha : a ∈ arrayClasses) (hb : b ∈ arrayClasses) :
    s.acceptsArrays r (.defined (r1, .antenna) a) (.defined (r2, .antenna) b) = true ↔ r1 = r ∧ r2 = r := by
  simp only [acceptCheck, List.all_eq_true] at h
  have := h a ha b hb r1 (by cases r1 <;> simp) r2 (by cases r2 <;> simp)
  rw [eq_of_beq this]
  simp

/-- C172, what holds: a scenario accepts two arrays exactly if both belong to the copy of the package it belongs to. -/
theorem C172_copies_partial (i : PyInstall) (hl : i.linked = true) {l : List PyJob} {s : PyState} (hs : Session i l s) (r r1 r2 : Root)
    (hc : complete s r) {a b : String} (ha : a ∈ arrayClasses) (hb : b ∈ arrayClasses) :
    s.acceptsArrays r (.defined (r1, .antenna) a) (.defined (r2, .antenna) b) = true ↔ r1 = r ∧ r2 = r := by
  refine acceptsArrays_iff ?_ r1 r2 ha hb
  obtain ⟨-, -, -, -, -, c1⟩ := check_accept
  obtain ⟨-, -, -, -, -, -, -, c2, c3, c4⟩ := check_plain_accept
  rcases session_reached i hl hs with ⟨-, rfl⟩ | ⟨-, ⟨-, rfl, -⟩ | ⟨⟨rfl, -⟩ | ⟨rfl, -⟩, -⟩ | hb⟩
  · exact absurd hc (complete_not_fresh r)
  · cases r with
    | openNTN => exact absurd hc c3
    | tr38811 => exact absurd hc c4
  · cases r with
    | openNTN => exact absurd hc c1
    | tr38811 => exact linked_loaded.1.2.2.2.1
  · cases r with
    | openNTN => exact absurd hc c2
    | tr38811 => exact linked_loaded.2.2.2.2.1
  · exact hb.2.2.2 r

/-- The code violates C172: after `import OpenNTN`, scenarios of `sionna.phy.channel.tr38811` reject the arrays of `OpenNTN`. -/
theorem C172_violated : ¬ C172_statement := by
  intro h
  let i : PyInstall := ⟨true, true, fun _ _ => true⟩
  have hu : .load (.openNTN, .init) ∈ userImports := by decide
  obtain ⟨s, hs⟩ := ((C171_imports i rfl).1 [.load (.openNTN, .init)] (by simpa using hu)).2 fun _ _ _ _ => rfl
  have hc := (C171_imports i rfl).2 _ s hs _ (List.mem_singleton_self _)
  have h1 := hc.1 _ _ rfl
  have h2 := hc.2 rfl
  have := h i _ s rfl hs .tr38811 .openNTN .openNTN h2 h1 h1 "Antenna" (by decide) "AntennaArray" (by decide)
  rw [C172_copies_partial i rfl hs _ _ _ h2 (by decide) (by decide)] at this
  exact absurd this.1 (by decide)

/-- A session in which both copies are complete. -/
example : ∃ (i : PyInstall) (l : List PyJob) (s : PyState), i.linked = true ∧ Session i l s ∧ complete s .openNTN ∧ complete s .tr38811 ∧
    "Antenna" ∈ arrayClasses := by
  let i : PyInstall := ⟨true, true, fun _ _ => true⟩
  have hu : .load (.openNTN, .init) ∈ userImports := by decide
  obtain ⟨s, hs⟩ := ((C171_imports i rfl).1 [.load (.openNTN, .init)] (by simpa using hu)).2 fun _ _ _ _ => rfl
  have hc := (C171_imports i rfl).2 _ s hs _ (List.mem_singleton_self _)
  exact ⟨i, _, s, rfl, hs, hc.1 _ _ rfl, hc.2 rfl, by decide⟩

/-! ### C173 -/

/-- C173. The package can be used without being integrated into Sionna: it can be imported when there is no link and no inserted line. -/
def C173_statement : Prop :=
  ∀ i : PyInstall, i.linked = false → i.hooked = false → ∃ s, Session i [.load (.openNTN, .init)] s

set_option maxRecDepth 100000 in
/-- Without the link, imports fail. -/
theorem check_unlinked : (⟨false, false, fun _ _ => true⟩ : PyInstall).run 600 (.fresh [.load (.openNTN, .init)]) = .error .fileNotFound ∧
    (⟨false, false, fun _ _ => true⟩ : PyInstall).run 600 ⟨.loaded, [], [], [], [.load (.openNTN, .init)]⟩ = .error .fileNotFound ∧
    (⟨false, true, fun _ _ => true⟩ : PyInstall).run 600 (.fresh [.load (.openNTN, .init)]) = .error .fileNotFound ∧
    (⟨false, true, fun _ _ => true⟩ : PyInstall).run 600 (.fresh [.loadSionna]) = .error .fileNotFound := by
  decide +kernel

theorem import_fails (i : PyInstall) {s : PyState} {e : PyJob} {n : ℕ} {err : Err} (h : i.full.run n { s with jobs := [e] } = .error err) (t : PyState) :
    ¬ Import i s e t := by
  rintro ⟨m, hm, ht⟩
  have hm := ((run_full i m _ _).1 hm).1
  rcases le_total m n with hle | hle
  · obtain ⟨k, rfl⟩ := Nat.exists_eq_add_of_le hle
    rw [run_add, hm] at h
    have := run_done i.full k ht
    simp only [bind, Except.bind, this] at h
    cases h
  · obtain ⟨k, rfl⟩ := Nat.exists_eq_add_of_le hle
    rw [run_add, h] at hm
    cases hm

/-- C173, what holds: without the link no module of the package can be imported under any name, and if the line has been inserted, Sionna cannot
be imported either. With the link the package can be imported under its own name without the inserted line. -/
theorem C173_link_partial (i : PyInstall) :
    (i.linked = false → ∀ l s, Session i l s → (∀ e ∈ l, ∀ m, e ≠ .load m) ∧ (i.hooked = true → l = [])) ∧
    (i.linked = true → i.hooked = false → ∃ s, Session i [.load (.openNTN, .init)] s ∧ complete s .openNTN) := by
  refine ⟨fun hl => ?_, fun hl hh => ?_⟩
  · obtain ⟨c1, c2, c3, c4⟩ := check_unlinked
    have hfull : i.full = ⟨false, i.hooked, fun _ _ => true⟩ := by
      cases i; simp only at hl; subst hl; rfl
    have key : ∀ l s, Session i l s → (s = .fresh [] ∧ l = []) ∨ (s = ⟨.loaded, [], [], [], []⟩ ∧ i.hooked = false ∧ ∀ e ∈ l, ∀ m, e ≠ .load m) := by
      intro l s hs
      induction hs with
      | start => exact Or.inl ⟨rfl, rfl⟩
      | @next l s t e hs he ht ih =>
        have sub : ∀ s : PyState, s.started = [] → (∀ u, ¬ Import i s (.load (.openNTN, .init)) u) → ∀ f, ¬ Import i s (.load (.openNTN, f)) t := by
          intro s hst hno f hf
          by_cases h : f = .init
          · subst h; exact hno t hf
          · rw [import_submodule i (fun h => by cases h) h (by rw [hst]; simp) (by rw [hst]; simp)] at hf
            obtain ⟨u, hu, -⟩ := hf
            exact hno u hu
        have lnk : ∀ f, ¬ Import i ⟨.loaded, [], [], [], []⟩ (.load (.tr38811, f)) t := by
          intro f
          refine import_fails i (n := 1) (err := .fileNotFound) ?_ t
          rw [hfull]
          rfl
        have hS : i.hooked = false → ∀ u, Import i (.fresh []) .loadSionna u ↔ u = ⟨.loaded, [], [], [], []⟩ := by
          intro hh u
          rw [import_full i (n := 2) (t := ⟨.loaded, [], [], [], []⟩) (by rw [hfull, hh]; rfl) rfl]
          have : i.requests 2 { PyState.fresh [] with jobs := [.loadSionna] } = [] := by
            rw [requests_full, hfull, hh]; rfl
          rw [this]
          simp
        rcases ih with ⟨rfl, rfl⟩ | ⟨rfl, hh, hall⟩
        · cases hh : i.hooked with
          | true =>
            rw [hh] at hfull
            have hno : ∀ u, ¬ Import i (.fresh []) .loadSionna u := import_fails i (n := 600) (by rw [hfull]; exact c4)
            rcases userImports_cases he with rfl | ⟨r, f, rfl⟩
            · exact absurd ht (hno t)
            · cases r with
              | openNTN => exact absurd ht (sub _ rfl (import_fails i (n := 600) (by rw [hfull]; exact c3)) f)
              | tr38811 =>
                rw [import_below i rfl] at ht
                obtain ⟨u, hu, -⟩ := ht
                exact absurd hu (hno u)
          | false =>
            have hS := hS hh
            rw [hh] at hfull
            rcases userImports_cases he with rfl | ⟨r, f, rfl⟩
            · exact Or.inr ⟨(hS t).1 ht, rfl, by simp⟩
            · cases r with
              | openNTN => exact absurd ht (sub _ rfl (import_fails i (n := 600) (by rw [hfull]; exact c1)) f)
              | tr38811 =>
                rw [import_below i rfl] at ht
                obtain ⟨u, hu, hu'⟩ := ht
                rw [hS] at hu
                subst hu
                exact absurd hu' (lnk f)
        · rcases userImports_cases he with rfl | ⟨r, f, rfl⟩
          · rw [import_sionna i (by decide)] at ht
            subst ht
            refine Or.inr ⟨rfl, hh, fun e he m => ?_⟩
            rcases List.mem_cons.1 he with rfl | he
            · exact fun h => by cases h
            · exact hall e he m
          · cases r with
            | openNTN => exact absurd ht (sub _ rfl (import_fails i (n := 600) (by rw [hfull, hh]; exact c2)) f)
            | tr38811 => exact absurd ht (lnk f)
    intro l s hs
    rcases key l s hs with ⟨-, rfl⟩ | ⟨-, hh, hall⟩
    · exact ⟨by simp, fun _ => rfl⟩
    · exact ⟨hall, fun h => absurd (hh.symm.trans h) (by decide)⟩
  · have hu : .load (.openNTN, .init) ∈ userImports := by decide
    obtain ⟨s, hs⟩ := ((C171_imports i hl).1 [.load (.openNTN, .init)] (by simpa using hu)).2 fun _ h => absurd (hh.symm.trans h) (by decide)
    exact ⟨s, hs, ((C171_imports i hl).2 _ s hs _ (List.mem_singleton_self _)).1 _ _ rfl⟩

/-- The code violates C173. -/
theorem C173_violated : ¬ C173_statement := by
  intro h
  obtain ⟨s, hs⟩ := h ⟨false, false, fun _ _ => true⟩ rfl rfl
  exact ((C173_link_partial _).1 rfl _ s hs).1 _ (List.mem_singleton_self _) _ rfl

/-- Without the link there is a session: of Sionna only. -/
example : Session ⟨false, false, fun _ _ => true⟩ [.loadSionna] ⟨.loaded, [], [], [], []⟩ :=
  .next .start (by decide) ⟨2, rfl, rfl⟩

end OpenNTN
