import Verif.Props.Cir
import Verif.Props.Rays
import Verif.Props.Pathloss

/-
C82: what a generation call returns.
-/
namespace OpenNTN

open Classical Spec

variable {B U : ℕ} [NeZero B] {cls : ScenarioClass} {sa : ScenarioArgs} {c : Config} {always : Bool}
  {log : List (ChanEvent B 1 U)} {s : ChanState B 1 U}

/-- The additional losses are numbers once they are stored. -/
theorem channel_losses (h : mkScenario cls sa = .ok c) (r : ChanReach c always log s) :
    s.topo = TopoState.init c ∨ ∃ g v : ℝ, s.topo.plGas = some (fun _ _ _ => g) ∧ s.topo.plScint = some (fun _ _ _ => some v) ∧
      s.topo.plEntry = some (fun _ _ _ => entryLoss) := by
  obtain ⟨tl, rt, ht, -⟩ := r.topo
  generalize s.topo = t at rt
  clear r
  induction rt with
  | init => exact Or.inl rfl
  | @call log' s' a d r' ih =>
    have ih := ih fun e he => ht e (List.mem_cons_of_mem _ he)
    obtain ⟨a', ha⟩ := ht _ List.mem_cons_self
    dsimp only at ha
    rcases setTopology_cases h s' a d with ⟨-, e⟩ | ⟨e0, e1, e⟩ | ⟨-, -, -, e2, -, -, ut, bs, i, h1, h2, h3⟩
    · rw [e]; exact ih
    · rw [e]
      rcases ih with i2 | ⟨g, v, i1, i2, i3⟩
      · exfalso
        rw [i2] at e0
        simp only [needForUpdate, Bool.or_eq_false_iff] at e1
        simp [assertsHold, TopoState.init, e1.1.1.1] at e0
      · exact Or.inr ⟨g, v, i1, i2, i3⟩
    · right
      rw [e2]
      have hat : (storeArgs s' a).atmosphere = some ⟨47, 0.41, 40, 1020, 273, 7.5, 50, 3.6, 0.5⟩ := by rw [ha]; rfl
      obtain ⟨g, v, hg, hv, -⟩ := C56_losses_partial (at' := ⟨47, 0.41, 40, 1020, 273, 7.5, 50, 3.6, 0.5⟩) h
        (by constructor <;> norm_num) (Or.inr (by norm_num))
      obtain ⟨-, q1, q2, q3⟩ := (updateTopology_one h rfl d h1 h2 h3 hat).2.2.1 g _ hg hv
      exact ⟨g, v, q1, q3, q2⟩

/-- Large scale parameters in use are in their ranges. -/
theorem channel_lsp (h : mkScenario cls sa = .ok c) (r : ChanReach c always log s) (hap : Apart log) (z : PerLink B 1 U (Fin 7 → ℝ))
    (i : CallInputs B 1 U) (hi : callInputs always s z = .ok i) (b : Fin B) (n : Fin 1) (u : Fin U) :
    0 < (i.lsp b n u).ds ∧ 0 < (i.lsp b n u).kFactor := by
  have key : ∀ t z, IsSampleOf c t z i.lsp → 0 < (i.lsp b n u).ds ∧ 0 < (i.lsp b n u).kFactor := by
    rintro t z ⟨los, indoor, ut, -, -, -, hs⟩
    obtain ⟨near, S, hS⟩ := hs b n
    have := C26_lsp_ranges h S (z b n) u
    rw [← hS] at this
    exact ⟨this.1, this.2.2.1⟩
  cases always
  · obtain ⟨-, -, -, q⟩ := C16_lsp_frozen h r
    obtain ⟨_, _, _, _, _, -, -, -, se, -, -, hs⟩ := q z i hi
    exact key _ _ hs
  · exact key _ _ ((C17_lsp_fresh h r).2.2 (channel_ready h rfl r hap).1 z i hi)

theorem coeffCall_delays {n : ℕ} (g : CoeffGen) (l : LinkTopo) (k : ℝ) (r : LinkRays (n + 2)) (cDs : ℝ)
    (phi : Fin (n + 2) → Fin raysPerCluster → Fin 4 → ℝ) (hr : IsDelayProfile r.delays) (hc : 0 ≤ cDs) :
    Monotone (coeffCall g l k r cDs phi).2 ∧ (coeffCall g l k r cDs phi).2 0 = 0 :=
  ⟨(C47_paths r.powers r.delays (nlosRay g l r phi) cDs).1,
    (C47_first_delay r.powers r.delays (nlosRay g l r phi) cDs hr.2.2 ⟨0, hr.2.1⟩ hc).1⟩

/-- What a generation call returns after a successful `set_topology` call on one BS and UTs at different planar positions: on every link
with rays, numbers, and the delays of the subclusters of these rays. -/
theorem generation_numbers {n : ℕ} (h : mkScenario cls sa = .ok c) (r : ChanReach c always log s) (hap : Apart log)
    (hs : ∃ e ∈ log, ChanEvent.succeeded e) (ut bs : PanelArray) (fs : ℝ) (w : CirDraws B 1 U (n + 2)) :
    ∃ i ri out indoor, callInputs always s w.lsp = .ok i ∧ rayInputs s.topo i = .ok ri ∧ ri.lsp = i.lsp ∧ ri.mask = i.mask ∧ ri.los = i.los ∧
    cirCall c always ut bs fs s w = .ok out ∧ s.topo.inState = some indoor ∧ s.topo.los = some i.los ∧
    (∀ b u, indoor b u = false → ∃ act, 0 < act ∧ IsOutdoorMask act fun k : Fin (n + 2) => i.mask b 0 u k) ∧
    (sa.direction = "downlink" → ∃ o, out = .inl o ∧ ∀ b u L, raysCall c ri w.rays b 0 u = .ok L →
      (∀ ra ta q k, ∃ z : ℂ, o.h b u ra 0 ta q k = .ok z) ∧
      ∃ g l k L' cd phi, 0 ≤ cd ∧ (∀ q, o.delays b u 0 q = .ok ((coeffCall g l k L' cd phi).2 q)) ∧ L'.delays = L.delays) ∧
    (sa.direction = "uplink" → ∃ o, out = .inr o ∧ ∀ b u L, raysCall c ri w.rays b 0 u = .ok L →
      (∀ ra ta q k, ∃ z : ℂ, o.h b 0 ra u ta q k = .ok z) ∧
      ∃ g l k L' cd phi, 0 ≤ cd ∧ (∀ q, o.delays b 0 u q = .ok ((coeffCall g l k L' cd phi).2 q)) ∧ L'.delays = L.delays) := by
  obtain ⟨i, hi⟩ := (C18_generation_possible_partial h rfl r hap w.lsp).2 hs
  obtain ⟨tl, rt, -⟩ := r.topo
  have hlos : s.topo.los.isSome := by
    rcases (channel_ready h rfl r hap).2 with ⟨i2, -⟩ | ⟨-, -, -, -, p4, -⟩
    · obtain ⟨e, he, hs⟩ := hs; exact absurd hs (i2 e he)
    · exact p4
  have hne : s.topo ≠ TopoState.init c := by intro e; rw [e] at hlos; cases hlos
  rcases fresh_invariant h rfl rt with ⟨-, e⟩ | ⟨_, _, _, utl, bsl, indoor, -, -, -, -, q5, q6, q7, q8⟩
  · exact absurd e hne
  obtain ⟨p, los, mean, std, pb, -, s1, s2, s3, s4, s5, -⟩ := q8.statistics
  rcases channel_losses h r with e | ⟨g, v, l1, l2, l3⟩
  · exact absurd e hne
  have hb := mkScenario_built h
  have hpl : samplePathloss s.topo = .ok fun b n u => .ok (pb b n u + g + v + entryLoss) := by
    unfold samplePathloss; rw [s4, l1, l2, l3]; rfl
  have hri : ∃ ri, rayInputs s.topo i = .ok ri ∧ ri.lsp = i.lsp ∧ ri.mask = i.mask ∧ ri.los = i.los := by
    unfold rayInputs; rw [q7, s2, s5]; exact ⟨_, rfl, rfl, rfl, rfl⟩
  obtain ⟨ri, hri, ri1, ri2, ri3⟩ := hri
  have hcall : ∃ out, cirCall c always ut bs fs s w = .ok out := by
    unfold cirCall
    simp only [bind, Except.bind, hi, hri]
    rw [if_neg (by simp)]
    have : ∃ PL, stepPathloss c s.topo = .ok PL := by
      unfold stepPathloss; split_ifs
      · exact ⟨_, hpl⟩
      · exact ⟨_, rfl⟩
    obtain ⟨PL, hPL⟩ := this
    rw [hPL]
    dsimp only
    split_ifs <;> exact ⟨_, rfl⟩
  obtain ⟨out, hcall⟩ := hcall
  have hmask : s.mask = some i.mask ∧ s.topo.los = some i.los := by
    unfold callInputs at hi
    split at hi
    · cases hi
    · split at hi
      · rename_i hm hl _ _ _ _ _ _
        cases hi
        exact ⟨hm, hl⟩
      · cases hi
  obtain ⟨i', ri', hi', hri', hax⟩ := C51_axes c always ut bs fs s w out hcall
  rw [hi] at hi'; cases hi'
  rw [hri] at hri'; cases hri'
  obtain ⟨nl, nn, -, -, -, hl2, hn2, hm⟩ := C31_active_clusters h
  have hm := fun b n u => hm always log s r hap _ _ _ hmask.1 hmask.2 q7 b n u
  have hcds : ∀ b u, ∃ cd, c.getReal .pcDS (i.los b 0 u) = .ok cd ∧ 0 ≤ cd := fun b u => by
    obtain ⟨cd, hcd, hcd0⟩ := ((C04_admissible_values h).2.2.2.2 (i.los b 0 u)).2.2.2.1 .pcDS (by simp)
    exact ⟨cd, hcd, hcd0⟩
  refine ⟨i, ri, out, indoor, hi, hri, ri1, ri2, ri3, hcall, q7, hmask.2, fun b u hin =>
    ⟨if i.los b 0 u then nl else nn, by split_ifs <;> omega, fun k => hm b 0 u hin k⟩, fun hd => ?_, fun hd => ?_⟩
  · have hd' : c.direction = "downlink" := by rw [hb.dir_eq, hd]
    have hout : ∃ o, out = .inl o := by
      unfold cirCall at hcall
      simp only [bind, Except.bind, hi, hri] at hcall
      rw [if_neg (by simp)] at hcall
      split at hcall
      · cases hcall
      · rw [if_neg (by rw [hd']; decide)] at hcall
        cases hcall
        exact ⟨_, rfl⟩
    obtain ⟨o, rfl⟩ := hout
    refine ⟨o, rfl, fun b u L hL => ?_⟩
    obtain ⟨cd, hcd, hcd0⟩ := hcds b u
    obtain ⟨⟨o', ho, h1, h2⟩, -⟩ : _ ∧ _ := ⟨(hax b 0 u L cd (pb b 0 u + g + v + entryLoss) hL hcd (fun _ => ⟨_, hpl, rfl⟩)).1 hd', trivial⟩
    cases ho
    exact ⟨fun ra ta q k => ⟨_, h1 ra ta q k⟩, _, _, _, _, _, _, mul_nonneg hcd0 (by norm_num : (0 : ℝ) ≤ 1e-9), h2, rfl⟩
  · have hd' : c.direction = "uplink" := by rw [hb.dir_eq, hd]
    have hout : ∃ o, out = .inr o := by
      unfold cirCall at hcall
      simp only [bind, Except.bind, hi, hri] at hcall
      rw [if_neg (by simp)] at hcall
      split at hcall
      · cases hcall
      · rw [if_pos hd'] at hcall
        cases hcall
        exact ⟨_, rfl⟩
    obtain ⟨o, rfl⟩ := hout
    refine ⟨o, rfl, fun b u L hL => ?_⟩
    obtain ⟨cd, hcd, hcd0⟩ := hcds b u
    obtain ⟨⟨o', ho, h1, h2⟩, -⟩ : _ ∧ _ := ⟨(hax b 0 u L cd (pb b 0 u + g + v + entryLoss) hL hcd (fun _ => ⟨_, hpl, rfl⟩)).2 hd', trivial⟩
    cases ho
    exact ⟨fun ra ta q k => ⟨_, h1 ra ta q k⟩, _, _, _, _, _, _, mul_nonneg hcd0 (by norm_num : (0 : ℝ) ≤ 1e-9), h2, rfl⟩

/-- C82. After a successful `set_topology` call on one BS and UTs at different planar positions, whatever happened before and since, a
generation call returns, in the configured direction. On the link of every outdoor UT, given a K-factor of at least -9 dB if it
has LoS, every coefficient of every antenna pair, path and time sample is a number, and the path delays are finite, sorted and start at
zero. -/
theorem C82_finite {n : ℕ} (h : mkScenario cls sa = .ok c) (r : ChanReach c always log s) (hap : Apart log)
    (hs : ∃ e ∈ log, ChanEvent.succeeded e) (ut bs : PanelArray) (fs : ℝ) (w : CirDraws B 1 U (n + 2)) :
    ∃ i out indoor, callInputs always s w.lsp = .ok i ∧ cirCall c always ut bs fs s w = .ok out ∧ s.topo.inState = some indoor ∧
    (sa.direction = "downlink" → ∃ o, out = .inl o ∧ ∀ b u, indoor b u = false →
      (i.los b 0 u = true → -9 ≤ 10 * log10 (i.lsp b 0 u).kFactor) →
      (∀ ra ta q k, ∃ z : ℂ, o.h b u ra 0 ta q k = .ok z) ∧
      ∃ d : Fin (n + 6) → ℝ, (∀ q, o.delays b u 0 q = .ok (d q)) ∧ Monotone d ∧ d 0 = 0) ∧
    (sa.direction = "uplink" → ∃ o, out = .inr o ∧ ∀ b u, indoor b u = false →
      (i.los b 0 u = true → -9 ≤ 10 * log10 (i.lsp b 0 u).kFactor) →
      (∀ ra ta q k, ∃ z : ℂ, o.h b 0 ra u ta q k = .ok z) ∧
      ∃ d : Fin (n + 6) → ℝ, (∀ q, o.delays b 0 u q = .ok (d q)) ∧ Monotone d ∧ d 0 = 0) := by
  obtain ⟨i, ri, out, indoor, hi, -, ri1, ri2, ri3, hcall, q7, -, hm, hdl, hul⟩ := generation_numbers h r hap hs ut bs fs w
  -- rays of an outdoor link
  have hrays : ∀ b u, indoor b u = false → (i.los b 0 u = true → -9 ≤ 10 * log10 (i.lsp b 0 u).kFactor) →
      ∃ L, raysCall c ri w.rays b 0 u = .ok L ∧ IsDelayProfile L.delays := by
    intro b u hin hdb
    obtain ⟨hds, hk⟩ := channel_lsp h r hap w.lsp i hi b 0 u
    obtain ⟨act, ha, hm⟩ := hm b u hin
    obtain ⟨L, hL⟩ := raysCall_defined h ri w.rays b 0 u act ha
      (fun k => by rw [ri2]; exact hm k) (by rw [ri1]; exact hds) (by rw [ri1]; exact hk) (by rw [ri1, ri3]; exact hdb)
    obtain ⟨un, -, -, -, -, -, -, -, -, e1, -⟩ := raysCall_ok hL
    obtain ⟨d, u', e2, hd, -⟩ := C32_delays_partial h (ri.los b 0 u) (ri.lsp b 0 u).ds (ri.lsp b 0 u).kFactor
      (fun k : Fin (n + 2) => ri.mask b 0 u k) (w.rays.delay b 0 u) (fun hl => by
        rw [ri1]; rw [ri3] at hl; exact k_lower hk (hdb hl))
    rw [e2] at e1
    have := congrArg Prod.fst (Except.ok.inj e1)
    dsimp only at this
    exact ⟨L, hL, by rw [← this]; exact hd⟩
  refine ⟨i, out, indoor, hi, hcall, q7, fun hd => ?_, fun hd => ?_⟩
  · obtain ⟨o, ho, hn⟩ := hdl hd
    refine ⟨o, ho, fun b u hin hdb => ?_⟩
    obtain ⟨L, hL, hprof⟩ := hrays b u hin hdb
    obtain ⟨h1, g, l, k, L', cd, phi, hcd, h2, hd'⟩ := hn b u L hL
    exact ⟨h1, _, h2, coeffCall_delays _ _ _ _ _ _ (by rw [hd']; exact hprof) hcd⟩
  · obtain ⟨o, ho, hn⟩ := hul hd
    refine ⟨o, ho, fun b u hin hdb => ?_⟩
    obtain ⟨L, hL, hprof⟩ := hrays b u hin hdb
    obtain ⟨h1, g, l, k, L', cd, phi, hcd, h2, hd'⟩ := hn b u L hL
    exact ⟨h1, _, h2, coeffCall_delays _ _ _ _ _ _ (by rw [hd']; exact hprof) hcd⟩

/-- The hypotheses of C51 and C82 are met after the complete call of `exChan_ok`: two batch examples, three outdoor UTs. -/
example (ut bs : PanelArray) (w : CirDraws 2 1 3 4) : ∃ (c : Config) (log : List (ChanEvent 2 1 3)) (s : ChanState 2 1 3) (out : _),
    mkScenario .urban (exArgs 2000000000 "uplink" 50) = .ok c ∧ ChanReach c false log s ∧ Apart log ∧
    (∃ e ∈ log, ChanEvent.succeeded e) ∧ cirCall c false ut bs 1000 s w = .ok out ∧ s.topo.inState = some fun _ _ => false := by
  obtain ⟨c, hc⟩ := exConfig
  have r := ChanReach.topology (exChan 2 1 3) (exDraws 2 1 3) (exZ 2 1 3) (ChanReach.init (c := c) (always := false))
  have e := exChan_ok hc false 2 3
  rw [e] at r
  have hs : ∃ e ∈ [ChanEvent.topology (exChan 2 1 3) (exDraws 2 1 3) (exZ 2 1 3) (.ok ())], ChanEvent.succeeded e :=
    ⟨_, List.mem_cons_self, trivial⟩
  obtain ⟨i, out, indoor, -, h1, h2, -⟩ := C82_finite hc r (exChan_apart 2 1 3 _ _ _) hs ut bs 1000 w
  refine ⟨c, _, _, out, hc, r, exChan_apart 2 1 3 _ _ _, hs, h1, ?_⟩
  obtain ⟨tl, rt, -⟩ := r.topo
  rw [chanSetTopology_topo]
  rcases setTopology_cases hc (TopoState.init c) (exChan 2 1 3).toTopo (exDraws 2 1 3) with ⟨e, -⟩ | ⟨-, e, -⟩ | ⟨-, -, b, -⟩
  · cases e
  · cases e
  · exact b.inState

end OpenNTN
