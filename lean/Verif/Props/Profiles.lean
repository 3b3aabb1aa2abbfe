import Verif.Spec.Profiles
import Verif.Props.Tdl
import Verif.Props.Cdl
import Verif.Spec.Coeff

/-
C132, C133: the delay profiles are those of the standard. See `Spec.profiles` for where its values come from. The angles, spreads and ratios in C133
were taken from the files of the repository; they say what the four files have in common and are no check against the standard.
-/
namespace OpenNTN

open Classical

theorem linear_fromDb (p : ℤ) : Spec.linear p = Spec.fromDb ((p : ℝ) / 10000) := by
  unfold Spec.linear Spec.fromDb
  congr 1
  ring

/-- The file selected for a name holds the profile of the standard. -/
theorem tdlFile_profile {m : String} {d : ℝ} {tab : TdlTable} {s : ℝ} (h : tdlFile m d = .ok (some tab, s)) {P : Spec.Profile}
    (hP : (m, P) ∈ Spec.profiles) :
    tab.scaleDelays = decide (P.spread = none) ∧ s = (P.spread.map (· * 10 ^ (-9 : ℤ))).getD d ∧
      tab.los = P.specular.isSome ∧ (if tab.los then tab.delays.tail else tab.delays).map tableVal = P.taps.map (·.1) ∧
      tab.powers.map tableVal = P.specular.toList ++ P.taps.map (·.2) ∧ P.taps ≠ [] := by
  unfold tdlFile at h
  have key : ∀ n : String, m = n → (n, P) ∈ Spec.profiles := fun n hn => hn ▸ hP
  repeat' (split at h)
  all_goals rename_i hm
  all_goals try cases h
  all_goals
    have hP' := key _ hm
    simp only [Spec.profiles, List.mem_cons, Prod.mk.injEq, List.not_mem_nil, or_false, String.reduceEq, false_and, false_or, true_and] at hP'
    subst hP'
    refine ⟨by simp [tdlA, tdlB, tdlC, tdlD, tdlA30, tdlB100, tdlC300], by norm_num, rfl, ?_, ?_, by simp⟩
  all_goals norm_num [tdlA, tdlB, tdlC, tdlD, tdlA30, tdlB100, tdlC300, tableVal]

/-- C132. Every tapped delay line has the delays, mean powers and K-factor of the standard for its name. -/
theorem C132_tdl_profiles {a : TdlArgs} {t : Tdl} (h : tdlInit a = .ok t) :
    (∃ P, (a.model, P) ∈ Spec.profiles) ∧ ∀ P, (a.model, P) ∈ Spec.profiles →
      t.delays = P.delays a.delaySpread ∧ t.delaySpread = (P.spread.map (· * 10 ^ (-9 : ℤ))).getD a.delaySpread ∧
      t.meanPowers = .ok (P.powers.map (· / P.powers.sum)) ∧
      (match P.kFactor with
        | some k => t.kFactor = .ok k
        | none => t.kFactor = .error .assertion) ∧
      t.params.numClusters = P.taps.length := by
  obtain ⟨tab, spread, hf, hl, hsp, -⟩ := tdlInit_ok h
  have hlin : tab.powers.map Spec.linear = (tab.powers.map tableVal).map Spec.fromDb := by
    rw [List.map_map]
    exact List.map_congr_left fun p _ => linear_fromDb p
  refine ⟨?_, fun P hP => ?_⟩
  · unfold tdlFile at hf
    repeat' (split at hf)
    all_goals rename_i hm
    all_goals try (cases hf; done)
    all_goals (rw [hm]; simp [Spec.profiles])
  obtain ⟨p1, p2, p3, p4, p5, p6⟩ := tdlFile_profile hf hP
  have hn : tab.numClusters = P.taps.length := by
    have hmem := tdlFile_mem hf
    have e := congrArg List.length p4
    rw [List.length_map, List.length_map] at e
    rw [← e]
    simp only [List.mem_cons, List.not_mem_nil, or_false] at hmem
    rcases hmem with rfl | rfl | rfl | rfl | rfl | rfl | rfl <;> rfl
  obtain ⟨⟨d1, q1⟩, taps, htaps⟩ := List.exists_cons_of_ne_nil p6
  rcases P with ⟨sp, tp, spr⟩
  dsimp only at *
  subst htaps
  rw [p5] at hlin
  have hsc : ∀ x : List ℝ, (if (decide (spr = none)) = true then x.map (· * t.delaySpread) else x.map (· * 1e-9)) =
      x.map (· * if spr = none then a.delaySpread else 10 ^ (-9 : ℤ)) := by
    intro x
    rcases spr with _ | v
    · simp [hsp, p2]
    · simp; norm_num
  unfold tdlLoad at hl
  simp only [linear_eq] at hl
  rcases sp with _ | s
  · have hlos : tab.los = false := by rw [p3]; rfl
    rw [hlos] at hl p4
    simp only [Bool.false_eq_true, if_false] at hl p4
    simp only [Option.toList_none, List.nil_append, List.map_map] at hlin
    rw [hlin, p4] at hl
    rcases ht : t with ⟨⟨l, sc, n, de, po, lp⟩, _, _, _, _, _⟩
    rw [ht] at hl hsp hsc
    cases hl
    refine ⟨?_, hsp.trans p2, ?_, ?_, hn⟩
    · simp only [Tdl.delays, Spec.Profile.delays, p1]
      rw [hsc, List.map_map]
      rfl
    · simp only [Tdl.meanPowers, Spec.Profile.powers, hlos, Bool.false_eq_true, if_false]
      rfl
    · simp [Spec.Profile.kFactor, Tdl.kFactor, hlos]
  · have hlos : tab.los = true := by rw [p3]; rfl
    rw [hlos] at hl p4
    simp only [if_true] at hl p4
    simp only [Option.toList_some, List.singleton_append, List.map_cons, List.map_map] at hlin
    rw [hlin] at hl
    dsimp only at hl
    rw [← List.map_tail, p4] at hl
    rcases ht : t with ⟨⟨l, sc, n, de, po, lp⟩, _, _, _, _, _⟩
    rw [ht] at hl hsp hsc
    cases hl
    refine ⟨?_, hsp.trans p2, ?_, ?_, hn⟩
    · simp only [Tdl.delays, Spec.Profile.delays, p1]
      rw [hsc, List.map_map]
      rfl
    · simp only [Tdl.meanPowers, Spec.Profile.powers, hlos, if_true, List.map_cons, List.sum_cons, List.map_map]
      have e : Spec.fromDb q1 + (taps.map (Spec.fromDb ∘ fun x => x.2)).sum + Spec.fromDb s =
        Spec.fromDb s + Spec.fromDb q1 + (taps.map (Spec.fromDb ∘ fun x => x.2)).sum := by ring
      rw [e, ← add_div, add_comm (Spec.fromDb q1)]
      rfl
    · have h0 : Spec.fromDb q1 ≠ 0 := (Real.rpow_pos_of_pos (by norm_num) _).ne'
      have hs : Spec.fromDb (s - q1) = Spec.fromDb s / Spec.fromDb q1 := by
        unfold Spec.fromDb
        rw [← Real.rpow_sub (by norm_num)]
        congr 1
        ring
      simp only [Spec.Profile.kFactor, Tdl.kFactor, hlos, if_true, List.map_cons, hs]
      rw [div_div_div_cancel_right₀]
      have : ∀ l : List (ℝ × ℝ), 0 ≤ (l.map (Spec.fromDb ∘ fun x => x.2)).sum := by
        intro l
        refine List.sum_nonneg fun x hx => ?_
        obtain ⟨y, -, rfl⟩ := List.mem_map.1 hx
        exact (Real.rpow_pos_of_pos (by norm_num) _).le
      have h1 : 0 < Spec.fromDb q1 := Real.rpow_pos_of_pos (by norm_num) _
      have h2 : 0 < Spec.fromDb s := Real.rpow_pos_of_pos (by norm_num) _
      have := this taps
      simp only [List.sum_cons]
      positivity

/-- A profile with a specular part and one with fixed delays. -/
example : ∀ m ∈ ["D", "B100"], ∃ t, tdlInit { model := m, delaySpread := 3e-7, carrierFrequency := 2e9 } = .ok t := by
  intro m hm
  obtain ⟨t, h, -⟩ := (C79_names_partial _ (exTdl_valid m)).1 (by
    simp only [List.mem_cons, List.not_mem_nil, or_false] at hm
    rcases hm with rfl | rfl <;> simp [Spec.tdlNames]) (by
    simp only [List.mem_cons, List.not_mem_nil, or_false] at hm
    rcases hm with rfl | rfl <;> decide)
  exact ⟨t, h⟩

/-! ### C133 -/

theorem cdlFile_profile {m : String} {tab : CdlTable} (h : cdlFile m = .ok tab) {P : Spec.Profile} (hP : (m, P) ∈ Spec.profiles) :
    P.spread = none ∧ tab.los = P.specular.isSome ∧ (if tab.los then tab.delays.tail else tab.delays).map tableVal = P.taps.map (·.1) ∧
      tab.powers.map tableVal = P.specular.toList ++ P.taps.map (·.2) ∧ P.taps ≠ [] := by
  unfold cdlFile at h
  have key : ∀ n : String, m = n → (n, P) ∈ Spec.profiles := fun n hn => hn ▸ hP
  repeat' (split at h)
  all_goals rename_i hm
  all_goals try cases h
  all_goals
    have hP' := key _ hm
    simp only [Spec.profiles, List.mem_cons, Prod.mk.injEq, List.not_mem_nil, or_false, String.reduceEq, false_and, false_or, true_and] at hP'
    subst hP'
    refine ⟨rfl, rfl, ?_, ?_, by simp⟩
  all_goals norm_num [cdlA, cdlB, cdlC, cdlD, tableVal]

/-- The angles at the terminal in a file. -/
theorem cdlFile_terminal {m : String} {tab : CdlTable} (h : cdlFile m = .ok tab) :
    (m, Spec.clusterAngles tab.los tab.aoa, Spec.clusterAngles tab.los tab.zoa) ∈ Spec.terminalAngles := by
  unfold cdlFile at h
  repeat' (split at h)
  all_goals rename_i hm
  all_goals try cases h
  all_goals
    subst hm
    norm_num [Spec.terminalAngles, Spec.clusterAngles, cdlA, cdlB, cdlC, cdlD]

/-- The powers of a file in terms of the profile. -/
theorem tapPowers_profile {los : Bool} {powers : List ℤ} {P : Spec.Profile} (h1 : los = P.specular.isSome)
    (h2 : powers.map tableVal = P.specular.toList ++ P.taps.map (·.2)) (h3 : P.taps ≠ []) : Spec.tapPowers los powers = P.powers := by
  have hlin : powers.map Spec.linear = (powers.map tableVal).map Spec.fromDb := by
    rw [List.map_map]
    exact List.map_congr_left fun p _ => linear_fromDb p
  rw [h2] at hlin
  rcases P with ⟨sp, tp, spr⟩
  dsimp only at *
  obtain ⟨⟨d1, q1⟩, taps, rfl⟩ := List.exists_cons_of_ne_nil h3
  rcases sp with _ | s
  · simp only [Option.isSome_none] at h1
    subst h1
    simp only [Option.toList_none, List.nil_append, List.map_map] at hlin
    show powers.map Spec.linear = _
    rw [hlin]
    rfl
  · simp only [Option.isSome_some] at h1
    subst h1
    rcases powers with _ | ⟨p, _ | ⟨q, rest⟩⟩
    · cases h2
    · simp at h2
    · simp only [Option.toList_some, List.singleton_append, List.map_cons, List.map_map, List.cons.injEq] at hlin
      obtain ⟨e1, e2, e3⟩ := hlin
      simp only [Spec.tapPowers, e1, e2, e3, Spec.Profile.powers, List.map_cons]
      rfl

theorem cdl_satellite {tab : CdlTable} (h : tab ∈ [cdlA, cdlB, cdlC, cdlD]) :
    (∀ x ∈ tab.aod, x = 0) ∧ (∀ x ∈ tab.zod, x = 1400000) ∧ tab.cASD = 0 ∧ tab.cZSD = 0 ∧ tab.cZSA = 70000 ∧
    tab.cASA = (if tab.los then 110000 else 150000) ∧ tab.xpr = (if tab.los then 160000 else 100000) ∧
    (tab.los = true → tab.aoa.head? = some (-1800000) ∧ tab.zoa.head? = some 400000) := by
  simp only [List.mem_cons, List.not_mem_nil, or_false] at h
  rcases h with rfl | rfl | rfl | rfl <;> decide

theorem cdlRays_const {angles : List ℝ} {v : ℝ} (h : ∀ x ∈ angles, x = v) : ∀ row ∈ cdlRays angles 0, ∀ x ∈ row, x = deg2rad v := by
  intro row hr x hx
  obtain ⟨y, hy, rfl⟩ := List.mem_map.1 hr
  obtain ⟨o, -, rfl⟩ := List.mem_map.1 hx
  rw [h y hy, zero_mul, add_zero]

/-- C133. Every clustered delay line has the delays, powers and K-factor that the standard gives for the tapped delay line of the same name. At the
satellite all rays have the direction of zenith angle 140 degrees and azimuth zero; at the terminal the clusters have the listed angles and spreads of
7 degrees in zenith and 15 degrees (with LoS 11 degrees) in azimuth; the cross polarisation ratio is 10 dB (16 dB). The LoS arrives from the direction of the
satellite, and uplink and downlink exchange the ends. -/
theorem C133_cdl_profiles {a : CdlArgs} {t : Cdl} (h : cdlInit a = .ok t) (hd : 0 ≤ a.delaySpread) :
    (∃ P, (a.model, P) ∈ Spec.profiles) ∧ ∀ P, (a.model, P) ∈ Spec.profiles →
      t.delays = P.delays a.delaySpread ∧ t.powers = .ok (P.powers.map (· / P.powers.sum)) ∧
      (match P.kFactor with
        | some k => t.kFactor = .ok k
        | none => t.kFactor = .error .assertion) ∧
      (let sat := if a.direction = "downlink" then (t.params.rays.aod, t.params.rays.zod) else (t.params.rays.aoa, t.params.rays.zoa);
        (∀ row ∈ sat.1, ∀ x ∈ row, x = 0) ∧ ∀ row ∈ sat.2, ∀ x ∈ row, x = 140 * Real.pi / 180) ∧
      (let ground := if a.direction = "downlink" then (t.params.rays.aoa, t.params.rays.zoa) else (t.params.rays.aod, t.params.rays.zod);
        ∃ az ze, (a.model, az, ze) ∈ Spec.terminalAngles ∧ Spec.RaysOf az (if P.specular.isSome then 11 else 15) ground.1 ∧ Spec.RaysOf ze 7 ground.2) ∧
      t.params.xpr = List.replicate P.taps.length (List.replicate 20 (Spec.fromDb (if P.specular.isSome then 16 else 10))) ∧
      (P.specular ≠ none → Spec.sphereDirection t.params.losAngles.zoa t.params.losAngles.aoa =
        -Spec.sphereDirection t.params.losAngles.zod t.params.losAngles.aod) := by
  obtain ⟨tab, hf, hl, hsp, hdir⟩ := cdlInit_ok h
  refine ⟨?_, fun P hP => ?_⟩
  · unfold cdlFile at hf
    repeat' (split at hf)
    all_goals rename_i hm
    all_goals try (cases hf; done)
    all_goals (rw [hm]; simp [Spec.profiles])
  obtain ⟨p1, p3, p4, p5, p6⟩ := cdlFile_profile hf hP
  have htap := tapPowers_profile p3 p5 p6
  obtain ⟨c1, c2, c3, c4, c5, c6, c7, c8⟩ := cdl_satellite (cdlFile_mem hf)
  obtain ⟨tab', hf', ps, hps, -, hsum, ⟨f, hf0, hfe⟩, -, hk1, hk2, hlen, -⟩ := C90_normalised h hd
  rw [hf] at hf'
  cases hf'
  obtain ⟨tab', hf', g1, g2, -⟩ := C91_angles h
  rw [hf] at hf'
  cases hf'
  have hdel : t.params.delays = P.taps.map (·.1) ∧ t.params.numClusters = tab.numClusters ∧
      t.params.xpr = List.replicate tab.numClusters (List.replicate 20 (pow10 (tableVal tab.xpr / 10))) ∧
      t.params.rays = cdlDirect (decide (a.direction = "downlink")) (Angles.mk (cdlRays (Spec.clusterAngles tab.los tab.aoa) (tableVal tab.cASA))
        (cdlRays (Spec.clusterAngles tab.los tab.aod) (tableVal tab.cASD)) (cdlRays (Spec.clusterAngles tab.los tab.zoa) (tableVal tab.cZSA))
        (cdlRays (Spec.clusterAngles tab.los tab.zod) (tableVal tab.cZSD))) := by
    rw [← p4]
    unfold cdlLoad at hl
    by_cases hlos : tab.los = true
    · rw [if_pos hlos] at hl
      dsimp only at hl
      split at hl
      · rename_i hp ha hb hza hzd
        have hdl : t.params = _ := (Except.ok.inj hl).symm
        have t1 := congrArg List.tail ha
        have t2 := congrArg List.tail hb
        have t3 := congrArg List.tail hza
        have t4 := congrArg List.tail hzd
        rw [hdl]
        simp only [List.tail_cons, ← List.map_tail] at t1 t2 t3 t4
        subst t1 t2 t3 t4
        simp only [Spec.clusterAngles, hlos, if_true, List.map_tail]
        exact ⟨trivial, trivial, trivial, rfl⟩
      · cases hl
    · rw [if_neg hlos] at hl
      have hdl : t.params = _ := (Except.ok.inj hl).symm
      rw [hdl]
      simp only [Spec.clusterAngles, hlos, Bool.false_eq_true, if_false]
      exact ⟨trivial, trivial, trivial, rfl⟩
  obtain ⟨hdel, hnc, hxpr, hrays⟩ := hdel
  have hnum : tab.numClusters = P.taps.length := by
    have := hlen t.delays.length (by simp)
    rw [← hnc, ← this, Cdl.delays, hdel]; simp
  have z1 : ∀ l : List ℤ, ∀ v : ℤ, (∀ x ∈ l, x = v) → ∀ x ∈ Spec.clusterAngles tab.los l, x = (v : ℝ) / 10000 := by
    intro l v hv x hx
    obtain ⟨y, hy, rfl⟩ := List.mem_map.1 hx
    have : y ∈ l := by
      split at hy
      · exact List.mem_of_mem_tail hy
      · exact hy
    rw [hv y this]
  have saz := cdlRays_const (z1 _ _ c1)
  have sze := cdlRays_const (z1 _ _ c2)
  have d0 : deg2rad (((0 : ℤ) : ℝ) / 10000) = 0 := by simp [deg2rad]
  have d140 : deg2rad (((1400000 : ℤ) : ℝ) / 10000) = 140 * Real.pi / 180 := by unfold deg2rad; push_cast; ring
  rw [d0] at saz
  rw [d140] at sze
  have t0 : tableVal 0 = 0 := by simp [tableVal]
  have t7 : tableVal 70000 = 7 := by norm_num [tableVal]
  have tA : tableVal (if tab.los then 110000 else 150000) = if P.specular.isSome then 11 else 15 := by
    rw [← p3]; split <;> norm_num [tableVal]
  have tX : pow10 (tableVal (if tab.los then 160000 else 100000) / 10) = Spec.fromDb (if P.specular.isSome then 16 else 10) := by
    unfold Spec.fromDb pow10
    rw [← p3]; split <;> norm_num [tableVal]
  rw [c3, c4, c5, c6, t0, t7, tA] at hrays
  rw [c7, tX, hnum] at hxpr
  refine ⟨?_, ?_, ?_, ?_, ?_, hxpr, ?_⟩
  · rw [Cdl.delays, hdel, hsp, Spec.Profile.delays, p1, List.map_map]
    simp
  · have : (P.powers.map (· * f)).sum = P.powers.sum * f := by simp [List.sum_map_mul_right]
    rw [hfe, htap, this] at hsum
    rw [hps, hfe, htap, eq_one_div_of_mul_eq_one_right hsum]
    simp only [mul_one_div]
  · rcases hs : P.specular with _ | s
    · have : P.kFactor = none := by simp [Spec.Profile.kFactor, hs]
      rw [this]
      exact hk2 (by rw [p3, hs]; rfl)
    · obtain ⟨p, q, rest, e1, e2⟩ := hk1 (by rw [p3, hs]; rfl)
      obtain ⟨⟨d1, q1⟩, taps, htaps⟩ := List.exists_cons_of_ne_nil p6
      rw [e1, hs, htaps] at p5
      simp only [List.map_cons, Option.toList_some, List.singleton_append, List.cons.injEq] at p5
      have : P.kFactor = some (Spec.fromDb (s - q1)) := by simp [Spec.Profile.kFactor, hs, htaps]
      rw [this, e2, linear_fromDb, linear_fromDb, show (p : ℝ) / 10000 = s from p5.1, show (q : ℝ) / 10000 = q1 from p5.2.1]
      unfold Spec.fromDb
      rw [← Real.rpow_sub (by norm_num), sub_div]
  · rw [hrays]
    rcases hdir with hdir | hdir
    · simp only [hdir, String.reduceEq, if_false, decide_false, cdlDirect, Bool.false_eq_true]
      exact ⟨saz, sze⟩
    · simp only [hdir, if_true, decide_true, cdlDirect]
      exact ⟨saz, sze⟩
  · rw [hrays]
    rcases hdir with hdir | hdir
    · simp only [hdir, String.reduceEq, if_false, decide_false, cdlDirect, Bool.false_eq_true]
      exact ⟨_, _, cdlFile_terminal hf, cdlRays_spec _ _, cdlRays_spec _ _⟩
    · simp only [hdir, if_true, decide_true, cdlDirect]
      exact ⟨_, _, cdlFile_terminal hf, cdlRays_spec _ _, cdlRays_spec _ _⟩
  · intro hs
    have hlos : tab.los = true := by rw [p3]; exact Option.isSome_iff_ne_none.2 hs
    obtain ⟨c81, c82⟩ := c8 hlos
    have hne : tab.aod.head? = some 0 ∧ tab.zod.head? = some 1400000 := by
      have hm := cdlFile_mem hf
      revert hlos hm
      simp only [List.mem_cons, List.not_mem_nil, or_false]
      rintro hlos (rfl | rfl | rfl | rfl)
      · cases hlos
      · cases hlos
      · exact ⟨rfl, rfl⟩
      · exact ⟨rfl, rfl⟩
    have f1 : Spec.fileRad (-1800000) = -Real.pi := by unfold Spec.fileRad; push_cast; ring
    have f2 : Spec.fileRad 400000 = Real.pi - 140 * Real.pi / 180 := by unfold Spec.fileRad; push_cast; ring
    have f3 : Spec.fileRad 0 = 0 := by unfold Spec.fileRad; simp
    have f4 : Spec.fileRad 1400000 = 140 * Real.pi / 180 := by unfold Spec.fileRad; push_cast; ring
    rcases hdir with hdir | hdir
    · obtain ⟨-, -, -, -, g⟩ := g2 hdir
      obtain ⟨a1, a2, a3, a4⟩ := g hlos
      rw [c81] at a1; rw [hne.1] at a2; rw [c82] at a3; rw [hne.2] at a4
      simp only [Option.map_some, Option.some.injEq, f1, f2, f3, f4] at a1 a2 a3 a4
      rw [a1, a2, a3, a4]
      generalize 140 * Real.pi / 180 = w
      ext i
      fin_cases i <;> simp [Spec.sphereDirection, Real.cos_pi_sub, Real.sin_pi_sub]
    · obtain ⟨-, -, -, -, g⟩ := g1 hdir
      obtain ⟨a1, a2, a3, a4⟩ := g hlos
      rw [c81] at a1; rw [hne.1] at a2; rw [c82] at a3; rw [hne.2] at a4
      simp only [Option.map_some, Option.some.injEq, f1, f2, f3, f4] at a1 a2 a3 a4
      rw [a1, a2, a3, a4]
      generalize 140 * Real.pi / 180 = w
      ext i
      fin_cases i <;> simp [Spec.sphereDirection, Real.cos_pi_sub, Real.sin_pi_sub]

/-- A LoS model in either direction. -/
example : ∀ d ∈ ["uplink", "downlink"], ∃ t, cdlInit { model := "D", delaySpread := 1e-7, direction := d } = .ok t :=
  fun d hd => (C80_call_partial _).1 (by simp) (by simpa using hd) (by simp)

end OpenNTN
