import Verif.Lemmas.Channel

/-
C16-C19: the state of a channel model across `set_topology` and generation calls.
-/
namespace OpenNTN

open Classical Spec

variable {B N U : ℕ} [NeZero B] {cls : ScenarioClass} {sa : ScenarioArgs} {c : Config} {always : Bool}
  {log : List (ChanEvent B N U)} {s : ChanState B N U}

theorem toTopo_relocates (a : ChanArgs B N U) (d : TopoDraws B N U) (x : Except Err Bool) :
    TopoCall.relocates ((a.toTopo, d, x) : TopoCall B N U) ↔ (a.utLoc ≠ none ∨ a.bsLoc ≠ none ∨ a.inState ≠ none ∨ a.los ≠ none) :=
  Iff.rfl

/-- The state is a function of the log. -/
theorem ChanReach.unique {s' : ChanState B N U} (r : ChanReach c always log s) (r' : ChanReach c always log s') : s = s' := by
  induction r generalizing s' with
  | init => cases r'; rfl
  | topology a d z r ih =>
    generalize hL : ChanEvent.topology a d z _ :: _ = L at r'
    cases r' with
    | init => cases hL
    | topology a' d' z' r'' =>
      injection hL with h1 h2
      injection h1 with h3 h4 h5 _
      subst h2 h3 h4 h5
      rw [ih r'']
    | generate z' r'' => injection hL with h1; cases h1
  | generate z r ih =>
    generalize hL : ChanEvent.generate z _ :: _ = L at r'
    cases r' with
    | init => cases hL
    | topology a' d' z' r'' => injection hL with h1; cases h1
    | generate z' r'' =>
      injection hL with h1 h2
      subst h2
      exact ih r''

omit [NeZero B] in
/-- What a generation call uses. -/
theorem callInputs_false {z : PerLink B N U (Fin 7 → ℝ)} {i : CallInputs B N U} (h : callInputs false s z = .ok i) :
    s.lsp = some i.lsp := by
  unfold callInputs at h
  rcases hl : s.lsp with _ | l
  · rw [hl] at h; simp at h
  · rw [hl] at h
    simp only [Bool.false_eq_true, if_false] at h
    split at h
    · cases h; rfl
    · cases h

omit [NeZero B] in
theorem callInputs_true {z : PerLink B N U (Fin 7 → ℝ)} {i : CallInputs B N U} (h : callInputs true s z = .ok i) :
    sampleLsp s z = .ok i.lsp := by
  unfold callInputs at h
  simp only [if_true] at h
  rcases hl : sampleLsp s z with e | l
  · rw [hl] at h; cases h
  · rw [hl] at h
    dsimp only at h
    split at h
    · cases h; rfl
    · cases h

/-! ### C16 -/

/-- C16: with `always_generate_lsp=False` a generation call draws nothing for the large scale parameters (its result does not depend
on `z`) and leaves the state alone; the parameters it uses are those stored by the most recent successful call that passed UT
locations, BS locations, indoor states or a LoS request, and these are a sample for the topology right after that call made from
random numbers drawn in that call. The log determines the state. -/
theorem C16_lsp_frozen (h : mkScenario cls sa = .ok c) (r : ChanReach c false log s) :
    (∀ s', ChanReach c false log s' → s' = s) ∧ (∀ z z', callInputs false s z = callInputs false s z') ∧
    (∀ z, ChanReach c false (.generate z (callInputs false s z) :: log) s) ∧
    ∀ z i, callInputs false s z = .ok i → ∃ pre a d z' post, log = pre ++ .topology a d z' (.ok ()) :: post ∧
      ChanEvent.redraws (.topology a d z' (.ok ()) : ChanEvent B N U) ∧ (∀ e ∈ pre, ¬ ChanEvent.redraws e) ∧
      ∃ se, ChanReach c false (.topology a d z' (.ok ()) :: post) se ∧ se.lsp = some i.lsp ∧ IsSampleOf c se.topo z' i.lsp := by
  refine ⟨fun s' r' => r'.unique r, fun z z' => rfl, fun z => .generate z r, fun z i hi => ?_⟩
  have hl := callInputs_false hi
  generalize hli : i.lsp = l at hl
  clear hi hli
  induction r with
  | init => cases hl
  | generate z r ih =>
    obtain ⟨pre, a, d, z', post, q1, q2, q3, q4⟩ := ih hl
    refine ⟨_ :: pre, a, d, z', post, by rw [q1]; rfl, q2, fun e he => ?_, q4⟩
    rcases List.mem_cons.1 he with rfl | he
    · exact fun hh => hh
    · exact q3 e he
  | @topology log s a d zz r ih =>
    have keep : ∀ (x : Except Err Unit), (chanSetTopology c false s a d zz).2 = x →
        ¬ ChanEvent.redraws (.topology a d zz x : ChanEvent B N U) → s.lsp = some l →
        ∃ pre a' d' z' post, (ChanEvent.topology a d zz (chanSetTopology c false s a d zz).2 :: log) =
            pre ++ .topology a' d' z' (.ok ()) :: post ∧
          ChanEvent.redraws (.topology a' d' z' (.ok ()) : ChanEvent B N U) ∧ (∀ e ∈ pre, ¬ ChanEvent.redraws e) ∧
          ∃ se, ChanReach c false (.topology a' d' z' (.ok ()) :: post) se ∧ se.lsp = some l ∧ IsSampleOf c se.topo z' l := by
      intro x hx hn hs
      obtain ⟨pre, a', d', z', post, q1, q2, q3, q4⟩ := ih hs
      refine ⟨_ :: pre, a', d', z', post, by rw [q1]; rfl, q2, fun e he => ?_, q4⟩
      rcases List.mem_cons.1 he with rfl | he
      · rw [hx]; exact hn
      · exact q3 e he
    obtain ⟨tl, rt, -⟩ := r.topo
    rcases chanSet_cases (always := false) h rt a d zz with ⟨e, -, e2⟩ | ⟨e1, e2⟩ | ⟨e1, hN, los, indoor, ut, mean, std, near, F, hst, hF, hc⟩
    · rw [e2] at hl
      exact keep (.error e) (by rw [e2]) (fun hh => hh) hl
    · rw [e2] at hl
      refine keep (.ok ()) (by rw [e2]) (fun hh => ?_) hl
      obtain ⟨-, q, -⟩ := C12_derived_fresh_partial h rt a.toTopo d false e1
      have := q.2 ((toTopo_relocates a d _).2 hh)
      cases this
    · rcases hc with ⟨G, hG, mask, -, e2⟩ | ⟨-, e2⟩
      · have r' := ChanReach.topology a d zz r
        rw [e2] at hl r' ⊢
        obtain ⟨-, q, -⟩ := C12_derived_fresh_partial h rt a.toTopo d true e1
        refine ⟨[], a, d, zz, log, rfl, (toTopo_relocates a d _).1 (q.1 rfl), fun e he => (by cases he), _, r', hl, ?_⟩
        refine ⟨los, indoor, ut, hst.los_eq, hst.indoor_eq, hst.ut_eq, fun b n => ⟨near b n,
          ⟨F b n, G b n, mean b n, std b n, hF b n, hG b n, hst.mean_ok b n, hst.std_ok b n⟩, fun u => ?_⟩⟩
        simp only [Bool.false_eq_true, if_false, Option.some.injEq] at hl
        rw [← hl]
        rfl
      · rw [e2] at hl
        exact keep (.error .invalidArgument) (by rw [e2]) (fun hh => hh) hl

/-! ### C17 -/

/-- C17: with `always_generate_lsp=True` nothing is ever stored; in every reachable state the large scale parameters of a generation
call are one fixed function, built from the means, deviations and factors held by the state, of the random numbers drawn in
that very call. If the most recent `set_topology` call did not fail after the assertions, they are a sample for the current topology. -/
theorem C17_lsp_fresh (h : mkScenario cls sa = .ok c) (r : ChanReach c true log s) :
    s.lsp = none ∧
    (∃ (mean : PerLink B N U (Fin 7 → WithBot ℝ)) (std : PerLink B N U (Fin 7 → ℝ)) (F : PerLink B N U (Fin 7 → Fin 7 → ℝ))
        (G : PerBs B N (Fin 7 → Fin U → Fin U → ℝ)),
      ∀ z i, callInputs true s z = .ok i → ∀ b n u, i.lsp b n u = lspOf (mean b n u) (std b n u) (correlateDraws (F b n) (G b n) (z b n) u)) ∧
    ((∀ a d z x, ChanEvent.topology a d z x ∈ log → x = .ok () ∨ x = .error .assertion) →
      ∀ z i, callInputs true s z = .ok i → IsSampleOf c s.topo z i.lsp) := by
  refine ⟨?_, ?_, ?_⟩
  · induction r with
    | init => rfl
    | generate z r ih => exact ih
    | @topology log s a d zz r ih =>
      obtain ⟨tl, rt, -⟩ := r.topo
      rcases chanSet_cases (always := true) h rt a d zz with ⟨e, -, e2⟩ | ⟨e1, e2⟩ | ⟨-, -, los, indoor, ut, mean, std, near, F, -, -, hc⟩
      · rw [e2]; exact ih
      · rw [e2]; exact ih
      · rcases hc with ⟨G, hG, mask, -, e2⟩ | ⟨-, e2⟩
        · rw [e2]; exact ih
        · rw [e2]; exact ih
  · by_cases hx : ∃ F G mean std, s.crossSqrt = some F ∧ s.spatialSqrt = some G ∧ s.topo.lspMean = some mean ∧ s.topo.lspStd = some std
    · obtain ⟨F, G, mean, std, e1, e2, e3, e4⟩ := hx
      refine ⟨mean, std, F, G, fun z i hi b n u => ?_⟩
      have := callInputs_true hi
      unfold sampleLsp at this
      rw [e1, e2, e3, e4] at this
      rw [← Except.ok.inj this]
    · refine ⟨fun _ _ _ _ => ⊥, fun _ _ _ _ => 0, fun _ _ _ _ _ => 0, fun _ _ _ _ _ => 0, fun z i hi => ?_⟩
      exfalso
      have := callInputs_true hi
      unfold sampleLsp at this
      split at this
      · rename_i F G mean std e1 e2 e3 e4
        exact hx ⟨F, G, mean, std, e1, e2, e3, e4⟩
      · cases this
  · intro hlog
    have inv : (s.crossSqrt = none) ∨ ∃ los indoor ut mean std near F G, TopoStats c s.topo los indoor ut mean std near ∧
        s.crossSqrt = some F ∧ s.spatialSqrt = some G ∧
        (∀ b n u, ∃ R, crossLspCorrelation c (los b n u) = .ok R ∧ IsCholesky R (F b n u)) ∧
        (∀ b n i, ∃ C, spatialCorrelationOf c (los b n) (indoor b) (fun u => (ut b u).x) (fun u => (ut b u).y) i = .ok C ∧
            IsCholesky C (G b n i)) := by
      induction r with
      | init => exact Or.inl rfl
      | generate z r ih => exact ih fun a d z x hm => hlog a d z x (List.mem_cons_of_mem _ hm)
      | @topology log s a d zz r ih =>
        have ih := ih fun a d z x hm => hlog a d z x (List.mem_cons_of_mem _ hm)
        obtain ⟨tl, rt, -⟩ := r.topo
        have hres := hlog a d zz _ List.mem_cons_self
        rcases chanSet_cases (always := true) h rt a d zz with ⟨e, e1, e2⟩ | ⟨e1, e2⟩ |
            ⟨-, -, los, indoor, ut, mean, std, near, F, hst, hF, hc⟩
        · rw [e2] at hres ⊢
          rcases hres with hres | hres
          · cases hres
          · cases hres
            have hsame := (C11_assertion_partial h rt a.toTopo d).2.1 e1
            rw [hsame]
            exact ih
        · rw [e2]
          obtain ⟨-, -, q, -⟩ := C12_derived_fresh_partial h rt a.toTopo d false e1
          have hsd := q rfl
          have hbase : (setTopology c s.topo a.toTopo d).1.inState = s.topo.inState ∧ (setTopology c s.topo a.toTopo d).1.utLoc = s.topo.utLoc := by
            rcases setTopology_cases h s.topo a.toTopo d with ⟨-, e⟩ | ⟨-, e0, e⟩ | ⟨-, -, -, -, e, -⟩
            · rw [e]; exact ⟨rfl, rfl⟩
            · rw [e]
              simp only [needForUpdate, Bool.or_eq_false_iff, Option.isSome_eq_false_iff, Option.isNone_iff_eq_none] at e0
              obtain ⟨⟨⟨n1, n2⟩, n3⟩, n4⟩ := e0
              constructor
              · show assign a.toTopo.inState s.topo.inState = _
                rw [n3]; rfl
              · show assign a.toTopo.utLoc s.topo.utLoc = _
                rw [n1]; rfl
            · rw [e1] at e
              split at e <;> cases e
          rcases ih with i1 | ⟨los, indoor, ut, mean, std, near, F, G, hst, p1, p2, p3, p4⟩
          · exact Or.inl i1
          · refine Or.inr ⟨los, indoor, ut, mean, std, near, F, G, ⟨?_, ?_, ?_, ?_, ?_, hst.excl, hst.mean_ok, hst.std_ok⟩, p1, p2, p3, p4⟩
            · exact hsd.los.trans hst.los_eq
            · exact hbase.1.trans hst.indoor_eq
            · exact hbase.2.trans hst.ut_eq
            · exact hsd.lspMean.trans hst.mean_eq
            · exact hsd.lspStd.trans hst.std_eq
        · rcases hc with ⟨G, hG, mask, -, e2⟩ | ⟨-, e2⟩
          · rw [e2]
            exact Or.inr ⟨los, indoor, ut, mean, std, near, F, G, hst, rfl, rfl, hF, hG⟩
          · rw [e2] at hres
            rcases hres with hres | hres <;> cases hres
    intro z i hi
    have hs := callInputs_true hi
    unfold sampleLsp at hs
    rcases inv with e | ⟨los, indoor, ut, mean, std, near, F, G, hst, p1, p2, p3, p4⟩
    · rw [e] at hs; cases hs
    · rw [p1, p2, hst.mean_eq, hst.std_eq] at hs
      refine ⟨los, indoor, ut, hst.los_eq, hst.indoor_eq, hst.ut_eq, fun b n => ⟨near b n,
          ⟨F b n, G b n, mean b n, std b n, p3 b n, p4 b n, hst.mean_ok b n, hst.std_ok b n⟩, fun u => ?_⟩⟩
      rw [← Except.ok.inj hs]
      rfl

/-! ### C18 -/

/-- The full claim of C18. -/
def C18_statement : Prop :=
  ∀ (B N U : ℕ) [NeZero B] (cls : ScenarioClass) (sa : ScenarioArgs) (c : Config), mkScenario cls sa = .ok c →
    ∀ (always : Bool) (log : List (ChanEvent B N U)) (s : ChanState B N U), ChanReach c always log s → ∀ z,
      (∃ i, callInputs always s z = .ok i) ↔ ∃ e ∈ log, ChanEvent.succeeded e

theorem latest_some {C α : Type} {counted : C → Prop} [DecidablePred counted] {value : C → Option α} {log : List C} {v : α}
    (h : latest counted value log = some v) : ∃ e ∈ log, counted e ∧ value e = some v := by
  induction log with
  | nil => cases h
  | cons e l ih =>
    by_cases hc : counted e
    · rw [latest_cons_counted hc] at h
      rcases hv : value e with _ | w
      · rw [hv] at h
        obtain ⟨e', h1, h2⟩ := ih h
        exact ⟨e', List.mem_cons_of_mem _ h1, h2⟩
      · rw [hv] at h
        exact ⟨e, List.mem_cons_self, hc, by rw [hv]; exact h⟩
    · rw [latest_cons_not hc] at h
      obtain ⟨e', h1, h2⟩ := ih h
      exact ⟨e', List.mem_cons_of_mem _ h1, h2⟩

/-- All required attributes are present once a call got past the assertions. -/
theorem required_present (h : mkScenario cls sa = .ok c) {tl : List (TopoCall B N U)} {t : TopoState B N U} (r : TopoReach c tl t) :
    (t = TopoState.init c) ∨ (t.utLoc.isSome ∧ t.bsLoc.isSome ∧ t.utOri.isSome ∧ t.bsOri.isSome ∧ t.utVel.isSome ∧ t.inState.isSome) := by
  induction r with
  | init => exact Or.inl rfl
  | @call log s a d r ih =>
    have key : assertsHold s a = true → (storeArgs s a).utLoc.isSome ∧ (storeArgs s a).bsLoc.isSome ∧ (storeArgs s a).utOri.isSome ∧
        (storeArgs s a).bsOri.isSome ∧ (storeArgs s a).utVel.isSome ∧ (storeArgs s a).inState.isSome := by
      intro e0
      simp only [assertsHold, Bool.and_eq_true] at e0
      simp only [storeArgs, assign_isSome]
      tauto
    rcases setTopology_cases h s a d with ⟨-, e⟩ | ⟨e0, -, e⟩ | ⟨e0, -, b, -⟩
    · rw [e]; exact ih
    · rw [e]; exact Or.inr (key e0)
    · rw [b.utLoc, b.bsLoc, b.utOri, b.bsOri, b.utVel, b.inState]; exact Or.inr (key e0)

theorem toTopo_physical (a : ChanArgs B N U) : (atmosphereOf a.toTopo).Physical := by
  constructor <;> norm_num [atmosphereOf, ChanArgs.toTopo]

/-- The positions passed in the log are pairwise different in the plane, in each batch example. -/
def Spec.Apart (log : List (ChanEvent B N U)) : Prop :=
  ∀ a d z x ut, ChanEvent.topology a d z x ∈ log → a.utLoc = some ut → ∀ b u v, (ut b u).x = (ut b v).x → (ut b u).y = (ut b v).y → u = v

/-- One BS and UTs apart: a call fails only by an assertion, and the caches are complete after the first success. -/
theorem channel_ready (h : mkScenario cls sa = .ok c) (hN : N = 1) (r : ChanReach c always log s) (hap : Apart log) :
    (∀ a d z x, ChanEvent.topology a d z x ∈ log → x = .ok () ∨ x = .error .assertion) ∧
    (((∀ e ∈ log, ¬ ChanEvent.succeeded e) ∧ s = ChanState.init c) ∨
     ((∃ e ∈ log, ChanEvent.succeeded e) ∧ s.crossSqrt.isSome ∧ s.spatialSqrt.isSome ∧ s.mask.isSome ∧ s.topo.los.isSome ∧
       (always = false → s.lsp.isSome))) := by
  induction r with
  | init => exact ⟨fun _ _ _ _ hm => (by cases hm), Or.inl ⟨fun _ hm => (by cases hm), rfl⟩⟩
  | generate z r ih =>
    obtain ⟨i1, i2⟩ := ih fun a d z x ut hm => hap a d z x ut (List.mem_cons_of_mem _ hm)
    refine ⟨fun a d z x hm => ?_, ?_⟩
    · rcases List.mem_cons.1 hm with hm | hm
      · cases hm
      · exact i1 a d z x hm
    · rcases i2 with ⟨i2, i3⟩ | ⟨⟨e, he, i2⟩, i3⟩
      · refine Or.inl ⟨fun e hm => ?_, i3⟩
        rcases List.mem_cons.1 hm with rfl | hm
        · exact fun hh => hh
        · exact i2 e hm
      · exact Or.inr ⟨⟨e, List.mem_cons_of_mem _ he, i2⟩, i3⟩
  | @topology log s a d zz r ih =>
    obtain ⟨i1, i2⟩ := ih fun a d z x ut hm => hap a d z x ut (List.mem_cons_of_mem _ hm)
    have r' := ChanReach.topology a d zz r
    obtain ⟨tl', rt', -, htl'⟩ := r'.topo
    obtain ⟨tl, rt, -⟩ := r.topo
    have hold : ∀ x, (chanSetTopology c always s a d zz).2 = x → (x = .ok () ∨ x = .error .assertion) →
        ∀ a' d' z' x', ChanEvent.topology a' d' z' x' ∈ ChanEvent.topology a d zz (chanSetTopology c always s a d zz).2 :: log →
          x' = .ok () ∨ x' = .error .assertion := by
      intro x hx hres a' d' z' x' hm
      rcases List.mem_cons.1 hm with hm | hm
      · injection hm with _ _ _ hm
        rw [hm, hx]; exact hres
      · exact i1 a' d' z' x' hm
    rcases chanSet_cases (always := always) h rt a d zz with ⟨e, e1, e2⟩ | ⟨e1, e2⟩ |
        ⟨-, -, los, indoor, ut, mean, std, near, F, hst, hF, hc⟩
    · have he : e = .assertion := by
        by_contra hne
        obtain ⟨b, hb⟩ := accepted_succeeds (s := s.topo) h hN a.toTopo d (toTopo_physical a) (by
          rw [e1]; simpa using hne)
        rw [e1] at hb; cases hb
      subst he
      refine ⟨hold _ (by rw [e2]) (Or.inr rfl), ?_⟩
      rw [e2, (C11_assertion_partial h rt a.toTopo d).2.1 e1]
      rcases i2 with ⟨i2, i3⟩ | ⟨⟨e, he, i2⟩, i3⟩
      · refine Or.inl ⟨fun e hm => ?_, i3⟩
        rcases List.mem_cons.1 hm with rfl | hm
        · exact fun hh => hh
        · exact i2 e hm
      · exact Or.inr ⟨⟨e, List.mem_cons_of_mem _ he, i2⟩, i3⟩
    · refine ⟨hold _ (by rw [e2]) (Or.inl rfl), Or.inr ?_⟩
      rw [e2]
      refine ⟨⟨_, List.mem_cons_self, trivial⟩, ?_⟩
      rcases i2 with ⟨-, i3⟩ | ⟨-, i3⟩
      · exfalso
        rw [i3] at e1
        rcases setTopology_cases h (TopoState.init c) a.toTopo d with ⟨-, e⟩ | ⟨e0, e3, -⟩ | ⟨-, -, -, -, e, -⟩
        · change (setTopology c (TopoState.init c) a.toTopo d).2 = _ at e1
          rw [e] at e1; cases e1
        · simp only [needForUpdate, Bool.or_eq_false_iff] at e3
          simp [assertsHold, TopoState.init, e3.1.1.1] at e0
        · change (setTopology c (TopoState.init c) a.toTopo d).2 = _ at e1
          rw [e1] at e
          split at e <;> cases e
      · obtain ⟨-, -, q, -⟩ := C12_derived_fresh_partial h rt a.toTopo d false e1
        refine ⟨i3.1, i3.2.1, i3.2.2.1, ?_, i3.2.2.2.2⟩
        show (setTopology c s.topo a.toTopo d).1.los.isSome = true
        rw [(q rfl).los]; exact i3.2.2.2.1
    · rcases hc with ⟨G, hG, mask, -, e2⟩ | ⟨hG, e2⟩
      · refine ⟨hold _ (by rw [e2]) (Or.inl rfl), Or.inr ?_⟩
        rw [e2]
        refine ⟨⟨_, List.mem_cons_self, trivial⟩, rfl, rfl, rfl, ?_, fun ha => ?_⟩
        · dsimp only; rw [hst.los_eq]; rfl
        · subst ha; rfl
      · exfalso
        apply hG
        have hut : (chanSetTopology c always s a d zz).1.topo.utLoc = some ut := by rw [e2]; exact hst.ut_eq
        rw [((persisted_accepted h rt').1).utLoc] at hut
        obtain ⟨e', hm, hacc, hv⟩ := latest_some hut
        obtain ⟨a', d', z', x', hm', he'⟩ := htl' e' hm hacc
        rw [he'] at hv
        have hd := hap a' d' z' x' ut hm' hv
        have hL : ∀ b n i, ∃ L C, spatialCorrelationOf c (los b n) (indoor b) (fun u => (ut b u).x) (fun u => (ut b u).y) i = .ok C ∧
            IsCholesky C L := fun b n i => by
          obtain ⟨C, e, -, hL, -⟩ := C29_spatial_psd (x := fun u => (ut b u).x) (y := fun u => (ut b u).y) h (hst.excl b n) i
          obtain ⟨L, hL⟩ := hL.2 fun u v _ => hd b u v
          exact ⟨L, C, e, hL⟩
        choose L hL using hL
        exact ⟨L, hL⟩

/-- C18, what holds: with one BS and UTs at different planar positions, a channel can be generated exactly after a successful
`set_topology` call, whatever failing calls are interspersed. Missing: topologies that pass the assertions but fail later on
(several BSs, coinciding UTs), see `C18_violated`. -/
theorem C18_generation_possible_partial (h : mkScenario cls sa = .ok c) (hN : N = 1) (r : ChanReach c always log s) (hap : Apart log)
    (z : PerLink B N U (Fin 7 → ℝ)) : (∃ i, callInputs always s z = .ok i) ↔ ∃ e ∈ log, ChanEvent.succeeded e := by
  obtain ⟨tl, rt, -⟩ := r.topo
  rcases (channel_ready h hN r hap).2 with ⟨i2, i3⟩ | ⟨i2, p1, p2, p3, p4, p5⟩
  · refine ⟨fun ⟨i, hi⟩ => ?_, fun ⟨e, he, hs⟩ => absurd hs (i2 e he)⟩
    exfalso
    rw [i3] at hi
    cases always
    · have := callInputs_false hi; cases this
    · have := callInputs_true hi; cases this
  · refine ⟨fun _ => i2, fun _ => ?_⟩
    obtain ⟨F, p1⟩ := Option.isSome_iff_exists.1 p1
    obtain ⟨G, p2⟩ := Option.isSome_iff_exists.1 p2
    obtain ⟨mask, p3⟩ := Option.isSome_iff_exists.1 p3
    rcases fresh_invariant h hN rt with ⟨-, e⟩ | ⟨_, _, _, ut, bs, i, -, -, -, -, q5, q6, q7, q8⟩
    · rw [e] at p4; cases p4
    obtain ⟨p, los, mean, std, pl, -, s1, s2, s3, -⟩ := q8.statistics
    obtain ⟨d3, s4, -⟩ := q8.distance3d
    have s5 := q8.angles
    rcases required_present h rt with e | ⟨-, -, o1, o2, o3, -⟩
    · rw [e] at q5; cases q5
    obtain ⟨uo, o1⟩ := Option.isSome_iff_exists.1 o1
    obtain ⟨bo, o2⟩ := Option.isSome_iff_exists.1 o2
    obtain ⟨uv, o3⟩ := Option.isSome_iff_exists.1 o3
    cases always
    · obtain ⟨l, p5⟩ := Option.isSome_iff_exists.1 (p5 rfl)
      unfold callInputs
      simp only [p5, p3, s1, s5, s4, o3, o1, o2, q6, Bool.false_eq_true, if_false]
      exact ⟨_, rfl⟩
    · have : ∃ l, sampleLsp s z = .ok l := by
        unfold sampleLsp
        rw [p1, p2, s2, s3]; exact ⟨_, rfl⟩
      obtain ⟨l, hl⟩ := this
      unfold callInputs
      simp only [hl, p3, s1, s5, s4, o3, o1, o2, q6, if_true]
      exact ⟨_, rfl⟩

/-- Complete arguments of the channel model: UTs `10 m` apart on a line, satellite at 600 km, everybody outdoor. -/
noncomputable def exChan (B N U : ℕ) : ChanArgs B N U where
  utLoc := some fun _ u => ⟨10 * (u.val : ℝ), 0, 1.5⟩
  bsLoc := some fun _ _ => ⟨0, 0, 600000⟩
  utOri := some fun _ _ => ⟨0, 0, 0⟩
  bsOri := some fun _ _ => ⟨0, 0, 0⟩
  utVel := some fun _ _ => ⟨0, 0, 0⟩
  inState := some fun _ _ => false

/-- Normal numbers, all zero. -/
def exZ (B N U : ℕ) : PerLink B N U (Fin 7 → ℝ) := fun _ _ _ _ => 0

theorem exChan_apart (B N U : ℕ) (d : TopoDraws B N U) (z : PerLink B N U (Fin 7 → ℝ)) (x : Except Err Unit) :
    Apart [ChanEvent.topology (exChan B N U) d z x] := by
  intro a d z x ut hm hut b u v hx _
  rw [List.mem_singleton] at hm
  injection hm with hm
  subst hm
  cases hut
  simp only [mul_eq_mul_left_iff, Nat.cast_inj] at hx
  rcases hx with hx | hx
  · exact Fin.ext hx
  · norm_num at hx

/-- The first complete call succeeds. -/
theorem exChan_ok (h : mkScenario cls sa = .ok c) (always : Bool) (B U : ℕ) [NeZero B] :
    (chanSetTopology c always (ChanState.init c) (exChan B 1 U) (exDraws B 1 U) (exZ B 1 U)).2 = .ok () := by
  have r := ChanReach.topology (exChan B 1 U) (exDraws B 1 U) (exZ B 1 U) (ChanReach.init (c := c) (always := always))
  rcases (channel_ready h rfl r (exChan_apart B 1 U _ _ _)).1 _ _ _ _ List.mem_cons_self with e | e
  · exact e
  · have := complete_call h (exChan B 1 U).toTopo (exDraws B 1 U) (toTopo_physical _) rfl rfl
    rcases chanSet_cases (always := always) (s := ChanState.init c) h .init (exChan B 1 U) (exDraws B 1 U) (exZ B 1 U) with
      ⟨_, e1, -⟩ | ⟨e1, -⟩ | ⟨-, -, los, indoor, ut, mean, std, near, F, hst, hF, hc⟩
    · change (setTopology c (TopoState.init c) _ _).2 = _ at e1
      rw [this] at e1; cases e1
    · change (setTopology c (TopoState.init c) _ _).2 = _ at e1
      rw [this] at e1; cases e1
    · rcases hc with ⟨G, hG, mask, -, e2⟩ | ⟨hG, e2⟩
      · rw [e2]
      · rw [e2] at e; cases e

/-- The hypotheses of the theorems on C16, C17 and C18 are met after that call: a channel can be generated. -/
theorem exChan_generates (h : mkScenario cls sa = .ok c) (always : Bool) (B U : ℕ) [NeZero B] (z : PerLink B 1 U (Fin 7 → ℝ)) :
    ∃ log s i, ChanReach c always log s ∧ Apart log ∧ callInputs always s z = .ok i ∧
      (∀ a d z x, ChanEvent.topology a d z x ∈ log → x = .ok () ∨ x = .error .assertion) := by
  have r := ChanReach.topology (exChan B 1 U) (exDraws B 1 U) (exZ B 1 U) (ChanReach.init (c := c) (always := always))
  have e := exChan_ok h always B U
  rw [e] at r
  obtain ⟨i, hi⟩ := (C18_generation_possible_partial h rfl r (exChan_apart B 1 U _ _ _) z).2 ⟨_, List.mem_cons_self, trivial⟩
  exact ⟨_, _, i, r, exChan_apart B 1 U _ _ _, hi, (channel_ready h rfl r (exChan_apart B 1 U _ _ _)).1⟩

example : ∃ (c : Config) (log : List (ChanEvent 2 1 3)) (s : ChanState 2 1 3) (i : CallInputs 2 1 3),
    mkScenario .urban (exArgs 2000000000 "uplink" 50) = .ok c ∧ ChanReach c false log s ∧ callInputs false s (exZ 2 1 3) = .ok i := by
  obtain ⟨c, hc⟩ := exConfig
  obtain ⟨log, s, i, r, -, hi, -⟩ := exChan_generates hc false 2 3 (exZ 2 1 3)
  exact ⟨c, log, s, i, hc, r, hi⟩

example : ∃ (c : Config) (log : List (ChanEvent 2 1 3)) (s : ChanState 2 1 3) (i : CallInputs 2 1 3),
    mkScenario .urban (exArgs 2000000000 "uplink" 50) = .ok c ∧ ChanReach c true log s ∧ callInputs true s (exZ 2 1 3) = .ok i ∧
    (∀ a d z x, ChanEvent.topology a d z x ∈ log → x = .ok () ∨ x = .error .assertion) := by
  obtain ⟨c, hc⟩ := exConfig
  obtain ⟨log, s, i, r, -, hi, hl⟩ := exChan_generates hc true 2 3 (exZ 2 1 3)
  exact ⟨c, log, s, i, hc, r, hi, hl⟩

/-- C18 fails with two BSs: the complete first call raises, the empty second call returns, and no channel can be generated. -/
theorem C18_violated : ¬ C18_statement := by
  intro H
  obtain ⟨c, hc⟩ := exConfig
  let a : ChanArgs 1 2 1 := exChan 1 2 1
  have hu := updateTopology_multi (c := c) (N := 2) (by norm_num) (exDraws 1 2 1)
    (s := storeArgs (TopoState.init c) a.toTopo) (ut := fun _ u => ⟨10 * (u.val : ℝ), 0, 1.5⟩) (bs := fun _ _ => ⟨0, 0, 600000⟩) rfl rfl
  have e : ∃ t, setTopology c (TopoState.init c) a.toTopo (exDraws 1 2 1) = (t, .error .invalidArgument) ∧ t.utLoc = a.utLoc ∧
      t.bsLoc = a.bsLoc ∧ t.inState = a.inState ∧ t.utOri = a.utOri ∧ t.bsOri = a.bsOri ∧ t.utVel = a.utVel := by
    unfold setTopology
    rw [if_pos (by rfl)]
    dsimp only
    rw [if_pos (by rfl), hu]
    exact ⟨_, rfl, rfl, rfl, rfl, rfl, rfl, rfl⟩
  obtain ⟨t, e, e1, e2, e3, e4, e5, e6⟩ := e
  have c1 : chanSetTopology c false (ChanState.init c) a (exDraws 1 2 1) (exZ 1 2 1) =
      ({ ChanState.init c with topo := t }, .error .invalidArgument) := by
    unfold chanSetTopology
    change (match (setTopology c (TopoState.init c) a.toTopo (exDraws 1 2 1)).2 with | _ => _) = _
    dsimp only
    have : (ChanState.init c : ChanState 1 2 1).topo = TopoState.init c := rfl
    rw [this, e]
  have c2 : chanSetTopology c false { ChanState.init c with topo := t } ({} : ChanArgs 1 2 1) (exDraws 1 2 1) (exZ 1 2 1) =
      ({ ChanState.init c with topo := storeArgs t ({} : ChanArgs 1 2 1).toTopo, called := true }, .ok ()) := by
    have hn : assertsHold t ({} : ChanArgs 1 2 1).toTopo = true := by
      unfold assertsHold; rw [e1, e2, e3, e4, e5, e6]; rfl
    have : setTopology c t ({} : ChanArgs 1 2 1).toTopo (exDraws 1 2 1) = (storeArgs t ({} : ChanArgs 1 2 1).toTopo, .ok false) := by
      unfold setTopology; rw [if_pos hn]; rfl
    unfold chanSetTopology
    dsimp only
    rw [this]
  have r := ChanReach.topology ({} : ChanArgs 1 2 1) (exDraws 1 2 1) (exZ 1 2 1)
    (ChanReach.topology a (exDraws 1 2 1) (exZ 1 2 1) (ChanReach.init (c := c) (always := false)))
  rw [c1] at r
  dsimp only at r
  rw [c2] at r
  obtain ⟨i, hi⟩ := (H 1 2 1 _ _ c hc false _ _ r (exZ 1 2 1)).2 ⟨_, List.mem_cons_self, trivial⟩
  have := callInputs_false hi
  cases this

/-! ### C19 -/

/-- The full claim of C19: every physical atmosphere can be reached by calls on the channel model. -/
def C19_statement : Prop :=
  ∀ (cls : ScenarioClass) (sa : ScenarioArgs) (c : Config), mkScenario cls sa = .ok c → ∀ at' : Atmosphere, at'.Physical →
    ∃ (log : List (ChanEvent 1 1 1)) (s : ChanState 1 1 1), ChanReach c false log s ∧ s.topo.atmosphere = some at'

/-- C19, what holds: whatever is called on the channel model, the atmosphere is unset or the standard one.
Missing: everything else, see `C19_violated`. -/
theorem C19_standard_atmosphere_partial (h : mkScenario cls sa = .ok c) (r : ChanReach c always log s) :
    s.topo.atmosphere = none ∨ s.topo.atmosphere = some ⟨47, 0.41, 40, 1020, 273, 7.5, 50, 3.6, 0.5⟩ := by
  obtain ⟨tl, rt, ht, -⟩ := r.topo
  generalize s.topo = t at rt
  clear r
  induction rt with
  | init => exact Or.inl rfl
  | @call log' s' a d r' ih =>
    have ih := ih fun e he => ht e (List.mem_cons_of_mem _ he)
    obtain ⟨a', ha⟩ := ht _ List.mem_cons_self
    dsimp only at ha
    rcases setTopology_cases h s' a d with ⟨-, e⟩ | ⟨-, -, e⟩ | ⟨-, -, b, -⟩
    · rw [e]; exact ih
    · rw [e, ha]; exact Or.inr rfl
    · rw [b.atmosphere, ha]; exact Or.inr rfl

example : ∃ (c : Config) (log : List (ChanEvent 2 1 3)) (s : ChanState 2 1 3), mkScenario .urban (exArgs 2000000000 "uplink" 50) = .ok c ∧
    ChanReach c false log s ∧ log ≠ [] := by
  obtain ⟨c, hc⟩ := exConfig
  have r := ChanReach.topology (exChan 2 1 3) (exDraws 2 1 3) (exZ 2 1 3) (ChanReach.init (c := c) (always := false))
  exact ⟨c, _, _, hc, r, by simp⟩

/-- C19 fails: a temperature of 300 K is out of reach. -/
theorem C19_violated : ¬ C19_statement := by
  intro H
  obtain ⟨c, hc⟩ := exConfig
  obtain ⟨log, s, r, e⟩ := H _ _ c hc ⟨47, 0.41, 40, 1020, 300, 7.5, 50, 3.6, 0.5⟩ (by constructor <;> norm_num)
  rcases C19_standard_atmosphere_partial hc r with e' | e'
  · rw [e] at e'; cases e'
  · rw [e] at e'
    have := congrArg Atmosphere.temperature (Option.some.inj e')
    norm_num at this

end OpenNTN
