import Mathlib.Data.List.Basic
import Mathlib.Logic.Function.Iterate
import Verif.Model.Install

/-
C81: the post-install step.
-/
namespace OpenNTN

/-- The text made of the given lines, separated by newlines. A text that ends with a newline has an empty last line. -/
def Spec.text : List (List Char) → List Char
  | [] => []
  | [l] => l
  | l :: l' :: ls => l ++ '\n' :: Spec.text (l' :: ls)

/-- Lines in the sense of the specification: no line terminator inside. -/
def Spec.Lines (L : List (List Char)) : Prop := L ≠ [] ∧ ∀ l ∈ L, '\n' ∉ l ∧ '\r' ∉ l

/-- The line that is looked for. -/
def Spec.old : List Char := "from . import tr38901".toList

/-- The line that is added. -/
def Spec.new : List Char := "from . import tr38811".toList

/-- The full claim of C81, besides repetition. -/
def C81_statement : Prop :=
  ∀ L, Spec.Lines L →
    ((∃ l ∈ L, Spec.new <:+: l) → modifyVanilla (Spec.text L) = Spec.text L) ∧
    ((∀ l ∈ L, ¬ Spec.old <:+: l) → modifyVanilla (Spec.text L) = Spec.text L) ∧
    (∀ A p Bs, L = A ++ p :: Bs → (∀ l ∈ L, ¬ Spec.new <:+: l) → Spec.old <:+: p → (∀ l ∈ A, ¬ Spec.old <:+: l) →
      modifyVanilla (Spec.text L) = Spec.text (A ++ p :: Spec.new :: Bs) ∨
      modifyVanilla (Spec.text L) = Spec.text (A ++ p :: Spec.new :: Bs ++ [[]]))

/-! ### Reading lines -/

theorem universal_id : ∀ t : List Char, '\r' ∉ t → universalNewlines t = t
  | [], _ => rfl
  | c :: cs, h => by
    have h1 : c ≠ '\r' := fun e => h (by simp [e])
    have h2 : '\r' ∉ cs := fun e => h (by simp [e])
    rw [universalNewlines, universal_id cs h2]
    · intro cs' e; exact absurd e h1
    · intro e; exact absurd e h1

theorem universal_no_return (t : List Char) : '\r' ∉ universalNewlines t := by
  induction t using universalNewlines.induct with
  | case1 => simp [universalNewlines]
  | case2 cs ih => simp [universalNewlines, ih]
  | case3 cs h ih =>
    rw [universalNewlines]
    · simpa using ih
    · exact h
  | case4 c cs h1 h2 ih =>
    rw [universalNewlines]
    · simp only [List.mem_cons, not_or]
      refine ⟨fun e => ?_, ih⟩
      exact h2 e.symm
    · exact h1
    · exact h2

theorem readLines_flatten : ∀ t : List Char, (readLines t).flatten = t
  | [] => rfl
  | c :: cs => by
    have ih := readLines_flatten cs
    rw [readLines]
    split
    · rename_i h; simp [ih, h]
    · split
      · rename_i h; rw [h] at ih; simp at ih; simp [← ih]
      · rename_i h; rw [h] at ih; simp only [List.flatten_cons, List.cons_append] at ih ⊢; rw [ih]

theorem readLines_append : ∀ (l cs : List Char), '\n' ∉ l → readLines (l ++ '\n' :: cs) = (l ++ ['\n']) :: readLines cs
  | [], cs, _ => by simp [readLines]
  | c :: l, cs, h => by
    have h1 : c ≠ '\n' := fun e => h (by simp [e])
    have h2 : '\n' ∉ l := fun e => h (by simp [e])
    rw [List.cons_append, readLines, if_neg h1, readLines_append l cs h2]
    rfl

theorem readLines_last : ∀ l : List Char, '\n' ∉ l → readLines l = if l = [] then [] else [l]
  | [], _ => by simp [readLines]
  | c :: l, h => by
    have h1 : c ≠ '\n' := fun e => h (by simp [e])
    have h2 : '\n' ∉ l := fun e => h (by simp [e])
    rw [readLines, if_neg h1, readLines_last l h2]
    by_cases hl : l = [] <;> simp [hl]

/-- Without newline in the pattern the terminator plays no role. -/
theorem infix_newline {pat l : List Char} (hp : '\n' ∉ pat) (h0 : pat ≠ []) : pat <:+: l ++ ['\n'] ↔ pat <:+: l := by
  rw [List.infix_concat_iff]
  constructor
  · rintro (h | h)
    · rw [List.suffix_concat_iff] at h
      rcases h with h | ⟨t, h, -⟩
      · exact absurd h h0
      · exact absurd (by rw [h]; simp) hp
    · exact h
  · exact Or.inr

theorem mem_lines_iff {pat : List Char} (hp : '\n' ∉ pat) (h0 : pat ≠ []) : ∀ L : List (List Char), (∀ l ∈ L, '\n' ∉ l) →
    ((∃ x ∈ readLines (Spec.text L), pat <:+: x) ↔ ∃ l ∈ L, pat <:+: l)
  | [], _ => by simp [Spec.text, readLines]
  | [l], h => by
    rw [Spec.text, readLines_last l (h l (by simp))]
    by_cases hl : l = []
    · subst hl; simp [h0]
    · simp [hl]
  | l :: l' :: ls, h => by
    have ih := mem_lines_iff hp h0 (l' :: ls) (fun x hx => h x (by simp at hx ⊢; tauto))
    rw [Spec.text, readLines_append l _ (h l (by simp))]
    simp only [List.mem_cons (b := l ++ ['\n']), List.mem_cons (b := l), or_and_right, exists_or, exists_eq_left, ih, infix_newline hp h0]

theorem present_iff {pat : List Char} {ls : List (List Char)} : (ls.any fun l => decide (pat <:+: l)) = true ↔ ∃ x ∈ ls, pat <:+: x := by
  simp [List.any_eq_true]

theorem insertIndex_none {pat : List Char} : ∀ ls : List (List Char), (∀ l ∈ ls, ¬ pat <:+: l) → insertIndex pat ls = none
  | [], _ => rfl
  | l :: ls, h => by
    rw [insertIndex, if_neg (h l (by simp)), insertIndex_none ls fun x hx => h x (by simp [hx])]
    rfl

theorem insertIndex_some {pat : List Char} : ∀ (A : List (List Char)) (p : List Char) (Bs : List (List Char)), (∀ l ∈ A, ¬ pat <:+: l) → pat <:+: p →
    insertIndex pat (A ++ p :: Bs) = some (A.length + 1)
  | [], p, Bs, _, hp => by simp [insertIndex, hp]
  | a :: A, p, Bs, h, hp => by
    rw [List.cons_append, insertIndex, if_neg (h a (by simp)), insertIndex_some A p Bs (fun x hx => h x (by simp [hx])) hp]
    rfl

/-- Lines that are not the last one are read with their terminator. -/
theorem readLines_text : ∀ (A : List (List Char)) (q : List Char) (Bs : List (List Char)), (∀ l ∈ A, '\n' ∉ l) →
    readLines (Spec.text (A ++ q :: Bs)) = A.map (· ++ ['\n']) ++ readLines (Spec.text (q :: Bs))
  | [], _, _, _ => rfl
  | a :: A, q, Bs, h => by
    have ih := readLines_text A q Bs fun x hx => h x (by simp [hx])
    have e : Spec.text (a :: A ++ q :: Bs) = a ++ '\n' :: Spec.text (A ++ q :: Bs) := by
      cases A <;> rfl
    rw [e, readLines_append a _ (h a (by simp)), ih]
    rfl

theorem text_append : ∀ (A : List (List Char)) (q : List Char) (Bs : List (List Char)),
    Spec.text (A ++ q :: Bs) = (A.map (· ++ ['\n'])).flatten ++ Spec.text (q :: Bs)
  | [], _, _ => rfl
  | a :: A, q, Bs => by
    have e : Spec.text (a :: A ++ q :: Bs) = a ++ '\n' :: Spec.text (A ++ q :: Bs) := by
      cases A <;> rfl
    rw [e, text_append A q Bs]
    simp

theorem text_no_return : ∀ L : List (List Char), (∀ l ∈ L, '\r' ∉ l) → '\r' ∉ Spec.text L
  | [], _ => by simp [Spec.text]
  | [l], h => h l (by simp)
  | l :: l' :: ls, h => by
    have ih := text_no_return (l' :: ls) (fun x hx => h x (by simp at hx ⊢; tauto))
    have := h l (by simp)
    simp only [Spec.text, List.mem_append, List.mem_cons, not_or]
    exact ⟨this, by decide, ih⟩

theorem new_ok : '\n' ∉ lineToAdd ∧ lineToAdd ≠ [] := by decide
theorem old_ok : '\n' ∉ precedingLine ∧ precedingLine ≠ [] := by decide

/-- C81, what holds: a file that mentions the new import, or does not mention the old one, is left as it is; otherwise the new import becomes a
line of its own directly after the first line that mentions the old one and all other lines are kept, provided that line is
terminated. Missing: the case that it is the last line and lacks its terminator, see `C81_violated`. -/
theorem C81_additive_partial (L : List (List Char)) (h : Spec.Lines L) :
    ((∃ l ∈ L, Spec.new <:+: l) → modifyVanilla (Spec.text L) = Spec.text L) ∧
    ((∀ l ∈ L, ¬ Spec.old <:+: l) → modifyVanilla (Spec.text L) = Spec.text L) ∧
    (∀ A p Bs, Bs ≠ [] → L = A ++ p :: Bs → (∀ l ∈ L, ¬ Spec.new <:+: l) → Spec.old <:+: p → (∀ l ∈ A, ¬ Spec.old <:+: l) →
      modifyVanilla (Spec.text L) = Spec.text (A ++ p :: Spec.new :: Bs)) := by
  obtain ⟨-, hL⟩ := h
  have hn : ∀ l ∈ L, '\n' ∉ l := fun l hl => (hL l hl).1
  have hu : universalNewlines (Spec.text L) = Spec.text L := universal_id _ (text_no_return L fun l hl => (hL l hl).2)
  have hnew : (∃ x ∈ readLines (Spec.text L), lineToAdd <:+: x) ↔ ∃ l ∈ L, Spec.new <:+: l := mem_lines_iff new_ok.1 new_ok.2 L hn
  have hold : (∃ x ∈ readLines (Spec.text L), precedingLine <:+: x) ↔ ∃ l ∈ L, Spec.old <:+: l := mem_lines_iff old_ok.1 old_ok.2 L hn
  unfold modifyVanilla
  rw [hu]
  refine ⟨fun h1 => ?_, fun h1 => ?_, fun A p Bs hB hA h1 h2 h3 => ?_⟩
  · dsimp only
    rw [if_pos (present_iff.2 (hnew.2 h1))]
  · have : insertIndex precedingLine (readLines (Spec.text L)) = none := insertIndex_none _ fun x hx hp => by
      obtain ⟨l, hl, q⟩ := hold.1 ⟨x, hx, hp⟩
      exact h1 l hl q
    dsimp only
    rw [this]
    simp
  · have hno : ¬ (readLines (Spec.text L)).any (fun l => decide (lineToAdd <:+: l)) = true := by
      rw [present_iff, hnew]
      rintro ⟨l, hl, q⟩
      exact h1 l hl q
    dsimp only
    rw [if_neg hno]
    obtain ⟨q, Bs', rfl⟩ := List.exists_cons_of_ne_nil hB
    have e : readLines (Spec.text L) = A.map (· ++ ['\n']) ++ (p ++ ['\n']) :: readLines (Spec.text (q :: Bs')) := by
      rw [hA, show A ++ p :: q :: Bs' = (A ++ [p]) ++ q :: Bs' by simp, readLines_text (A ++ [p]) q Bs' fun x hx => hn x (by
        rw [hA]; simp at hx ⊢; tauto)]
      simp
    have hi : insertIndex precedingLine (readLines (Spec.text L)) = some (A.length + 1) := by
      rw [e]
      have := insertIndex_some (pat := precedingLine) (A.map (· ++ ['\n'])) (p ++ ['\n']) (readLines (Spec.text (q :: Bs'))) ?_
        ((infix_newline old_ok.1 old_ok.2).2 h2)
      · simpa using this
      · intro l hl hp
        obtain ⟨a, ha, rfl⟩ := List.mem_map.1 hl
        exact h3 a ha ((infix_newline old_ok.1 old_ok.2).1 hp)
    rw [hi]
    dsimp only
    have e' : readLines (Spec.text L) = (A ++ [p]).map (· ++ ['\n']) ++ readLines (Spec.text (q :: Bs')) := by rw [e]; simp
    have hlen : ((A ++ [p]).map (· ++ ['\n'])).length = A.length + 1 := by simp
    have hadd : Spec.new = lineToAdd := rfl
    rw [hadd, e']
    generalize lineToAdd = add
    generalize ht : Spec.text (q :: Bs') = t
    have h1 : ∀ X Y : List (List Char), X.length = A.length + 1 → (List.take (A.length + 1) (X ++ Y) ++ [add ++ ['\n']] ++ List.drop (A.length + 1) (X ++ Y)) =
        X ++ [add ++ ['\n']] ++ Y := fun X Y hX => by rw [List.take_left' hX, List.drop_left' hX]
    rw [h1 _ _ hlen, List.flatten_append, List.flatten_append, readLines_flatten t]
    have h2 : A ++ p :: add :: q :: Bs' = (A ++ [p]) ++ add :: q :: Bs' := by simp
    rw [h2, text_append, Spec.text, ht]
    simp

/-- C81 fails: the old import is the last line and lacks its terminator; the new import ends up on the same line. -/
theorem C81_violated : ¬ C81_statement := by
  intro H
  have := (H ["from . import tr38901".toList] ⟨by simp, by decide⟩).2.2 [] _ [] rfl (by decide) (by decide) (by decide)
  revert this
  decide

/-- A prefix without newline is a prefix of the first line. -/
theorem prefix_first : ∀ (pat cs : List Char), '\n' ∉ pat → pat ≠ [] → pat <+: cs → ∃ l ls, readLines cs = l :: ls ∧ pat <+: l
  | [], _, _, h, _ => absurd rfl h
  | c :: pat, cs, hn, _, hp => by
    obtain ⟨t, rfl⟩ := hp
    have h1 : c ≠ '\n' := fun e => hn (by simp [e])
    have h2 : '\n' ∉ pat := fun e => hn (by simp [e])
    rw [List.cons_append, readLines, if_neg h1]
    by_cases h0 : pat = []
    · subst h0
      split
      · exact ⟨_, _, rfl, by simp⟩
      · exact ⟨_, _, rfl, by simp⟩
    · obtain ⟨l, ls, e, q⟩ := prefix_first pat (pat ++ t) h2 h0 (List.prefix_append _ _)
      rw [e]
      exact ⟨_, _, rfl, (List.cons_prefix_cons).2 ⟨rfl, q⟩⟩

/-- Text without newline that occurs anywhere occurs in a line. -/
theorem infix_line {pat : List Char} (hn : '\n' ∉ pat) (h0 : pat ≠ []) : ∀ cs : List Char, pat <:+: cs → ∃ l ∈ readLines cs, pat <:+: l
  | [], h => absurd (List.infix_nil.1 h) h0
  | c :: cs, h => by
    rcases List.infix_cons_iff.1 h with h | h
    · obtain ⟨l, ls, e, q⟩ := prefix_first pat (c :: cs) hn h0 h
      exact ⟨l, by rw [e]; simp, q.isInfix⟩
    · obtain ⟨l, hl, q⟩ := infix_line hn h0 cs h
      rw [readLines]
      split
      · exact ⟨l, by simp [hl], q⟩
      · split
        · rename_i e; rw [e] at hl; simp at hl
        · rename_i l' ls e
          rw [e] at hl
          rcases List.mem_cons.1 hl with rfl | hl
          · exact ⟨c :: l, by simp, q.trans (List.suffix_cons _ _).isInfix⟩
          · exact ⟨l, by simp [hl], q⟩

/-- C81, repetition: for every content of the file, running the step any positive number of times has the effect of running it once. -/
theorem C81_idempotent (t : List Char) (n : ℕ) : modifyVanilla^[n + 1] t = modifyVanilla t := by
  have key : modifyVanilla (modifyVanilla t) = modifyVanilla t := by
    by_cases h : modifyVanilla t = t
    · rw [h, h]
    · set c := modifyVanilla t with hc
      have hin : lineToAdd <:+: c ∧ '\r' ∉ c := by
        unfold modifyVanilla at hc
        dsimp only at hc
        split at hc
        · rename_i i _
          constructor
          · rw [hc, List.flatten_append, List.flatten_append]
            refine ⟨((readLines (universalNewlines t)).take i).flatten, '\n' :: ((readLines (universalNewlines t)).drop i).flatten, ?_⟩
            simp
          · have hr : ∀ l ∈ readLines (universalNewlines t), '\r' ∉ l := fun l hl hr => by
              have := universal_no_return t
              rw [← readLines_flatten (universalNewlines t)] at this
              exact this (List.mem_flatten.2 ⟨l, hl, hr⟩)
            rw [hc]
            intro hm
            obtain ⟨l, hl, hm⟩ := List.mem_flatten.1 hm
            simp only [List.mem_append, List.mem_singleton] at hl
            rcases hl with (hl | rfl) | hl
            · exact hr l (List.mem_of_mem_take hl) hm
            · revert hm; decide
            · exact hr l (List.mem_of_mem_drop hl) hm
        · exact absurd hc h
      unfold modifyVanilla
      rw [universal_id c hin.2]
      dsimp only
      rw [if_pos (present_iff.2 (infix_line new_ok.1 new_ok.2 c hin.1))]
  induction n with
  | zero => rfl
  | succ n ih => rw [Function.iterate_succ_apply', ih, key]

/-- A typical file. -/
example : modifyVanilla "from . import utils\nfrom . import tr38901\nfrom .awgn import AWGN\n".toList =
    "from . import utils\nfrom . import tr38901\nfrom . import tr38811\nfrom .awgn import AWGN\n".toList := by
  have := (C81_additive_partial ["from . import utils".toList, "from . import tr38901".toList, "from .awgn import AWGN".toList, []]
    ⟨by simp, by decide⟩).2.2 ["from . import utils".toList] _ _ (by simp) rfl (by decide) (by decide) (by decide)
  exact this

/-- The text made of the given lines, separated by carriage return and newline. -/
def Spec.windowsText : List (List Char) → List Char
  | [] => []
  | [l] => l
  | l :: l' :: ls => l ++ '\r' :: '\n' :: Spec.windowsText (l' :: ls)

theorem universal_prefix : ∀ (l : List Char) (t : List Char), '\r' ∉ l → universalNewlines (l ++ t) = l ++ universalNewlines t
  | [], _, _ => rfl
  | c :: cs, t, h => by
    have h1 : c ≠ '\r' := fun e => h (by simp [e])
    have h2 : '\r' ∉ cs := fun e => h (by simp [e])
    rw [List.cons_append, universalNewlines, universal_prefix cs t h2, List.cons_append]
    · intro cs' e; exact absurd e h1
    · intro e; exact absurd e h1

theorem universal_windows : ∀ L : List (List Char), (∀ l ∈ L, '\r' ∉ l) → universalNewlines (Spec.windowsText L) = Spec.text L
  | [], _ => rfl
  | [l], h => universal_id l (h l (by simp))
  | l :: l' :: ls, h => by
    have ih := universal_windows (l' :: ls) (fun x hx => h x (by simp at hx ⊢; tauto))
    rw [Spec.windowsText, universal_prefix _ _ (h l (by simp)), universalNewlines, ih, Spec.text]

/-- Two contents that are read as the same lines: either both are left alone or the same, longer content is written. -/
theorem modify_same {c c' : List Char} (h : universalNewlines c = universalNewlines c') :
    (modifyVanilla c = c ∧ modifyVanilla c' = c') ∨ (modifyVanilla c = modifyVanilla c' ∧ (universalNewlines c').length < (modifyVanilla c').length) := by
  unfold modifyVanilla
  rw [h]
  dsimp only
  generalize (if ((readLines (universalNewlines c')).any fun l => decide (lineToAdd <:+: l)) = true then none else insertIndex precedingLine (readLines (universalNewlines c'))) = idx
  cases idx with
  | none => exact .inl ⟨rfl, rfl⟩
  | some i =>
    refine .inr ⟨rfl, ?_⟩
    have e := congrArg List.length (readLines_flatten (universalNewlines c'))
    rw [← List.take_append_drop i (readLines (universalNewlines c'))] at e
    simp only [List.flatten_append, List.length_append, List.flatten_cons, List.flatten_nil, List.length_cons, List.length_nil] at e ⊢
    omega

/-- C81 for files with Windows line ends: a file that mentions the new import, or does not mention the old one, is left as it is, line ends included; otherwise
the new import is added directly after the first line that mentions the old one, no line is added or lost besides, and line ends become newlines. -/
theorem C81_windows (L : List (List Char)) (h : Spec.Lines L) :
    ((∃ l ∈ L, Spec.new <:+: l) → modifyVanilla (Spec.windowsText L) = Spec.windowsText L) ∧
    ((∀ l ∈ L, ¬ Spec.old <:+: l) → modifyVanilla (Spec.windowsText L) = Spec.windowsText L) ∧
    (∀ A p Bs, Bs ≠ [] → L = A ++ p :: Bs → (∀ l ∈ L, ¬ Spec.new <:+: l) → Spec.old <:+: p → (∀ l ∈ A, ¬ Spec.old <:+: l) →
      modifyVanilla (Spec.windowsText L) = Spec.text (A ++ p :: Spec.new :: Bs)) := by
  obtain ⟨c1, c2, c3⟩ := C81_additive_partial L h
  have nr : ∀ l ∈ L, '\r' ∉ l := fun l hl => (h.2 l hl).2
  have hu : universalNewlines (Spec.text L) = Spec.text L := universal_id _ (text_no_return L nr)
  have same := modify_same ((universal_windows L nr).trans hu.symm)
  rw [hu] at same
  have keep : modifyVanilla (Spec.text L) = Spec.text L → modifyVanilla (Spec.windowsText L) = Spec.windowsText L := by
    intro k
    rcases same with s | s
    · exact s.1
    · rw [k] at s; exact absurd s.2 (lt_irrefl _)
  refine ⟨fun a => keep (c1 a), fun a => keep (c2 a), fun A p Bs hB hA h1 h2 h3 => ?_⟩
  have k := c3 A p Bs hB hA h1 h2 h3
  rcases same with s | s
  · exfalso
    rw [s.2, hA] at k
    have cons : ∀ (l : List Char) (M : List (List Char)), M ≠ [] → Spec.text (l :: M) = l ++ '\n' :: Spec.text M := by
      intro l M hM
      cases M with
      | nil => exact absurd rfl hM
      | cons x xs => rfl
    have len : ∀ A : List (List Char), (Spec.text (A ++ p :: Bs)).length < (Spec.text (A ++ p :: Spec.new :: Bs)).length := by
      intro A
      induction A with
      | nil =>
        rw [List.nil_append, List.nil_append, cons p Bs hB, cons p (Spec.new :: Bs) (by simp), cons Spec.new Bs hB]
        simp only [List.length_append, List.length_cons]
        omega
      | cons a A ih =>
        rw [List.cons_append, List.cons_append, cons a _ (by simp), cons a _ (by simp)]
        simp only [List.length_append, List.length_cons]
        omega
    have := len A
    rw [k] at this
    exact lt_irrefl _ this
  · rw [s.1]; exact k

/-- A file of three lines with Windows line ends. -/
example : Spec.Lines ["import a".toList, "from . import tr38901".toList, []] ∧
    modifyVanilla (Spec.windowsText ["import a".toList, "from . import tr38901".toList, []]) =
      Spec.text ["import a".toList, "from . import tr38901".toList, "from . import tr38811".toList, []] := by
  have h : Spec.Lines ["import a".toList, "from . import tr38901".toList, []] := ⟨by simp, by decide⟩
  refine ⟨h, (C81_windows _ h).2.2 ["import a".toList] "from . import tr38901".toList [[]] (by simp) rfl (by decide) (by decide) (by decide)⟩

end OpenNTN
