import Verif.Props.Polarisation
import Verif.Props.Cir
import Verif.Props.LosDoppler

/-
C189: the whole channel, scattered paths included, in both directions.
-/
namespace OpenNTN

open Classical Spec MeasureTheory Matrix

/-- Initial phases of the rays for the other direction: the phase from vertical to horizontal polarisation and the one from horizontal to vertical are
exchanged. -/
def Spec.crossSwap : Fin 4 → Fin 4 := ![0, 2, 1, 3]

theorem crossSwap_invol (i : Fin 4) : crossSwap (crossSwap i) = i := by revert i; decide

/-- A ray in the other direction, without Faraday rotation. -/
theorem nlosRay_reverse {M : ℕ} (fc : ℝ) (ut bs : PanelArray) (e : Spec.Ends) (hh : e.bsHeight < 600000) (r : LinkRays M)
    (phi : Fin M → Fin raysPerCluster → Fin 4 → ℝ) (c : Fin M) (m : Fin raysPerCluster) (v s : ℕ) (t : ℝ) :
    nlosRay ⟨fc, ut, bs⟩ e.toBs (backwards r) phi c m v s t =
      nlosRay ⟨fc, bs, ut⟩ e.toUt r (fun c m i => phi c m (crossSwap i)) c m s v t := by
  have w1 : ∀ P, withFaraday ⟨fc, ut, bs⟩ e.toBs P = P := fun P => if_neg (not_le.2 hh)
  have w2 : ∀ P, withFaraday ⟨fc, bs, ut⟩ e.toUt P = P := fun P => if_neg (not_le.2 hh)
  have hfield : ∀ aoa aod zoa zod, fieldMatrix ⟨fc, ut, bs⟩ e.toBs aod aoa zod zoa (phaseMatrix (phi c m) (r.xpr c m)) v s =
      fieldMatrix ⟨fc, bs, ut⟩ e.toUt aoa aod zoa zod (phaseMatrix (fun i => phi c m (crossSwap i)) (r.xpr c m)) s v := by
    intro aoa aod zoa zod
    simp only [fieldMatrix, phaseMatrix, Fin.sum_univ_two, Matrix.mulVec, dotProduct, Matrix.of_apply, Matrix.cons_val, crossSwap, Ends.toBs, Ends.toUt]
    ring
  have harr : ∀ aoa aod zoa zod, arrayOffset ⟨fc, ut, bs⟩ e.toBs aod aoa zod zoa v s = arrayOffset ⟨fc, bs, ut⟩ e.toUt aoa aod zoa zod s v := by
    intro aoa aod zoa zod
    simp only [arrayOffset]
    rw [mul_comm]
    rfl
  simp only [nlosRay, backwards, w1, w2]
  rw [hfield (r.aoa c m) (r.aod c m) (r.zoa c m) (r.zod c m), harr]
  rfl

theorem reduceNlos_coeff {n : ℕ} (P D : Fin (n + 2) → ℝ) (H : Fin (n + 2) → Fin raysPerCluster → Coeff) (cDs : ℝ) (q : Fin (n + 6)) (v s : ℕ) (t : ℝ) :
    (reduceNlos P D H cDs).1 q v s t = (reduceNlos P D (fun c m => H c m v s t) cDs).1 q := by
  have h1 := congrFun (congrFun (reduceNlos_eval P D H cDs v q) s) t
  have h2 := congrFun (reduceNlos_eval P D (fun c m => H c m v) cDs s q) t
  have h3 := reduceNlos_eval P D (fun c m => H c m v s) cDs t q
  exact h1.trans (h2.trans h3)

theorem combineLos_apply {p : ℕ} (los : Bool) (k : ℝ) (hLos : Coeff) (h : Fin (p + 1) → Coeff) (q : Fin (p + 1)) (v s : ℕ) (t : ℝ) :
    combineLos los k hLos h q v s t = if los then (if q = 0 then hLos v s t * ((Real.sqrt (k / (k + 1)) : ℝ) : ℂ) else 0) +
      h q v s t * ((Real.sqrt (1 / (k + 1)) : ℝ) : ℂ) else h q v s t := by
  unfold combineLos
  cases los
  · rfl
  · by_cases hq : q = 0
    · subst hq; simp
    · simp [hq]

/-- C189 for a link below the ionosphere: path coefficients and delays of the uplink are those of the downlink, read from the other end, with the cross-polarised
initial phases exchanged. -/
theorem C189_link {n : ℕ} (fc : ℝ) (ut bs : PanelArray) (e : Spec.Ends) (hh : e.bsHeight < 600000) (k : ℝ) (r : LinkRays (n + 2)) (cDs : ℝ)
    (phi : Fin (n + 2) → Fin raysPerCluster → Fin 4 → ℝ) (q : Fin (n + 6)) (v s : ℕ) (t : ℝ) :
    (coeffCall ⟨fc, ut, bs⟩ e.toBs k (backwards r) cDs phi).1 q v s t =
      (coeffCall ⟨fc, bs, ut⟩ e.toUt k r cDs fun c m i => phi c m (crossSwap i)).1 q s v t ∧
    (coeffCall ⟨fc, ut, bs⟩ e.toBs k (backwards r) cDs phi).2 =
      (coeffCall ⟨fc, bs, ut⟩ e.toUt k r cDs fun c m i => phi c m (crossSwap i)).2 := by
  refine ⟨?_, rfl⟩
  have hred : (reduceNlos r.powers r.delays (nlosRay ⟨fc, ut, bs⟩ e.toBs (backwards r) phi) cDs).1 q v s t =
      (reduceNlos r.powers r.delays (nlosRay ⟨fc, bs, ut⟩ e.toUt r fun c m i => phi c m (crossSwap i)) cDs).1 q s v t := by
    rw [reduceNlos_coeff, reduceNlos_coeff]
    have : (fun c m => nlosRay ⟨fc, ut, bs⟩ e.toBs (backwards r) phi c m v s t) =
        fun c m => nlosRay ⟨fc, bs, ut⟩ e.toUt r (fun c m i => phi c m (crossSwap i)) c m s v t := by
      funext c m
      exact nlosRay_reverse fc ut bs e hh r phi c m v s t
    rw [this]
  have hlos := C50_reciprocity fc ut bs e v s t
  change combineLos e.los k _ (reduceNlos r.powers r.delays (nlosRay ⟨fc, ut, bs⟩ e.toBs (backwards r) phi) cDs).1 q v s t =
    combineLos e.los k _ (reduceNlos r.powers r.delays (nlosRay ⟨fc, bs, ut⟩ e.toUt r fun c m i => phi c m (crossSwap i)) cDs).1 q s v t
  rw [combineLos_apply, combineLos_apply, hlos, hred]

/-- C189. The uplink channel has the law of the downlink channel read from the other end: for every quantity that depends on coefficients and delays, the average
over the initial phases is the same. -/
def C189_statement : Prop :=
  ∀ (n : ℕ) (fc : ℝ) (au ab : ArrayArgs) (ut bs : PanelArray) (e : Spec.Ends) (k : ℝ) (r : LinkRays (n + 2)) (cDs : ℝ)
    (F : (Fin (n + 6) → ℕ → ℕ → ℝ → ℂ) × (Fin (n + 6) → ℝ) → ℝ),
    0 < fc → mkArray au = .ok ut → mkArray ab = .ok bs → 0 ≤ k → (∀ c, 0 ≤ r.powers c) → (∀ c m, 0 < r.xpr c m) →
    let up x := coeffCall ⟨fc, ut, bs⟩ e.toBs k (backwards r) cDs x
    let down x := coeffCall ⟨fc, bs, ut⟩ e.toUt k r cDs x
    ∫ x : Fin (n + 2) × Fin raysPerCluster × Fin 4 → ℝ, F (fun q v s t => (up fun c m i => x (c, m, i)).1 q v s t, (up fun c m i => x (c, m, i)).2)
        ∂(Measure.pi fun _ => uniformPhase) =
      ∫ x : Fin (n + 2) × Fin raysPerCluster × Fin 4 → ℝ, F (fun q v s t => (down fun c m i => x (c, m, i)).1 q s v t, (down fun c m i => x (c, m, i)).2)
        ∂(Measure.pi fun _ => uniformPhase)

/-- Exchanging the cross-polarised phases does not change averages. -/
theorem phases_swap {n : ℕ} {E : Type} [NormedAddCommGroup E] [NormedSpace ℝ E] (G H : (Fin (n + 2) → Fin raysPerCluster → Fin 4 → ℝ) → E)
    (h : ∀ phi, G phi = H fun c m i => phi c m (crossSwap i)) :
    ∫ x : Fin (n + 2) × Fin raysPerCluster × Fin 4 → ℝ, G (fun c m i => x (c, m, i)) ∂(Measure.pi fun _ => uniformPhase) =
      ∫ x : Fin (n + 2) × Fin raysPerCluster × Fin 4 → ℝ, H (fun c m i => x (c, m, i)) ∂(Measure.pi fun _ => uniformPhase) := by
  let σ : (Fin (n + 2) × Fin raysPerCluster × Fin 4) ≃ (Fin (n + 2) × Fin raysPerCluster × Fin 4) :=
    { toFun := fun p => (p.1, p.2.1, crossSwap p.2.2)
      invFun := fun p => (p.1, p.2.1, crossSwap p.2.2)
      left_inv := fun p => by simp [crossSwap_invol]
      right_inv := fun p => by simp [crossSwap_invol] }
  have mp := measurePreserving_piCongrLeft (fun _ : Fin (n + 2) × Fin raysPerCluster × Fin 4 => uniformPhase) σ
  refine Eq.trans ?_ (mp.integral_comp' fun x => H fun c m i => x (c, m, i))
  refine integral_congr_ae (Filter.Eventually.of_forall fun x => ?_)
  have hx : (fun c m i => MeasurableEquiv.piCongrLeft (fun _ : Fin (n + 2) × Fin raysPerCluster × Fin 4 => ℝ) σ x (c, m, i)) =
      fun c m i => x (c, m, crossSwap i) := by
    funext c m i
    have := MeasurableEquiv.piCongrLeft_apply_apply (β := fun _ : Fin (n + 2) × Fin raysPerCluster × Fin 4 => ℝ) σ x (c, m, crossSwap i)
    have e : σ (c, m, crossSwap i) = (c, m, i) := by simp [σ, crossSwap_invol]
    rw [e] at this
    exact this
  change G (fun c m i => x (c, m, i)) = H _
  rw [hx, h]

/-- C189 below the ionosphere, for all arrays, rays and quantities. -/
theorem C189_partial {n : ℕ} (fc : ℝ) (ut bs : PanelArray) (e : Spec.Ends) (hh : e.bsHeight < 600000) (k : ℝ) (r : LinkRays (n + 2)) (cDs : ℝ)
    {E : Type} [NormedAddCommGroup E] [NormedSpace ℝ E] (F : (Fin (n + 6) → ℕ → ℕ → ℝ → ℂ) × (Fin (n + 6) → ℝ) → E) :
    let up x := coeffCall ⟨fc, ut, bs⟩ e.toBs k (backwards r) cDs x
    let down x := coeffCall ⟨fc, bs, ut⟩ e.toUt k r cDs x
    ∫ x : Fin (n + 2) × Fin raysPerCluster × Fin 4 → ℝ, F (fun q v s t => (up fun c m i => x (c, m, i)).1 q v s t, (up fun c m i => x (c, m, i)).2)
        ∂(Measure.pi fun _ => uniformPhase) =
      ∫ x : Fin (n + 2) × Fin raysPerCluster × Fin 4 → ℝ, F (fun q v s t => (down fun c m i => x (c, m, i)).1 q s v t, (down fun c m i => x (c, m, i)).2)
        ∂(Measure.pi fun _ => uniformPhase) := by
  intro up down
  refine phases_swap (fun phi => F (fun q v s t => (up phi).1 q v s t, (up phi).2)) (fun phi => F (fun q v s t => (down phi).1 q s v t, (down phi).2)) ?_
  intro phi
  have h1 : (fun q v s t => (up phi).1 q v s t) = fun q v s t => (down fun c m i => phi c m (crossSwap i)).1 q s v t := by
    funext q v s t
    exact (C189_link fc ut bs e hh k r cDs phi q v s t).1
  have h2 : (up phi).2 = (down fun c m i => phi c m (crossSwap i)).2 := (C189_link fc ut bs e hh k r cDs phi 0 0 0 0).2
  exact congrArg F (Prod.ext h1 h2)

/-- A UT and a satellite facing each other along the x axis, outside LoS. -/
noncomputable def exEnds : Spec.Ends where
  bsOri := 0
  utOri := 0
  utVel := 0
  bsAzimuth := 0
  bsZenith := Real.pi / 2
  utAzimuth := 0
  utZenith := Real.pi / 2
  los := false
  distance := 600000
  bsHeight := 600000
  satSpeed := 0
  doppler := false

/-- Two equal clusters along the x axis. -/
noncomputable def exFlatRays : LinkRays (0 + 2) where
  delays := fun _ => 0
  powers := fun _ => 1 / 2
  aoa := fun _ _ => 0
  aod := fun _ _ => 0
  zoa := fun _ _ => Real.pi / 2
  zod := fun _ _ => Real.pi / 2
  xpr := fun _ _ => 100

theorem flat_field {a : ArrayArgs} {arr : PanelArray} (h : mkArray a = .ok arr) (hp : a.pattern = "omni") (u : ℕ)
    (he : (if arr.polarization = "single" then arr.pol1 else if arr.indPol2.count u = 0 then arr.pol1 else arr.pol2.getD arr.pol1) = arr.pol1) :
    fieldVector arr 0 (Real.pi / 2) 0 u = ![Real.cos arr.pol1.slant, Real.sin arr.pol1.slant] := by
  have hpat : arr.pol1.pattern = .omni := by simpa [patternOf, hp] using (C62_slants_partial h).2.2.symm
  have hpow : ∀ th ph, arr.pol1.pattern.power th ph = 1 := fun th ph => by rw [hpat]; exact (C61_patterns _ _ 0).2.2.2.2.1
  have hpsi : computePsi 0 (Real.pi / 2) 0 = 0 := by
    simp only [computePsi, Pi.zero_apply, Real.sin_zero, Real.cos_zero, sub_self, Real.sin_pi_div_two, Real.cos_pi_div_two]
    have : (⟨0 * 0 * 0 + 1 * (1 * 1 - 0 * 0 * 1), 0 * 1 + 0 * 1 * 0⟩ : ℂ) = 1 := by apply Complex.ext <;> norm_num
    rw [this, Complex.arg_one]
  simp only [fieldVector, he, l2gResponse, hpsi, Element.field, hpow, Real.sqrt_one, one_mul]
  funext k
  fin_cases k <;> simp [Matrix.mulVec, dotProduct, Fin.sum_univ_two]

/-- Total average power of the flat rays. -/
theorem flat_total (g : CoeffGen) (l : LinkTopo) (hl : l.los = false) (u s : ℕ) (f fs : Fin 2 → ℝ)
    (hf : fieldVector g.rx l.rxOri (Real.pi / 2) 0 u = f) (hs : Spec.faraday g.fc l.bsHeight (fieldVector g.tx l.txOri (Real.pi / 2) 0 s) = fs) :
    ∑ q, ∫ x : Fin (0 + 2) × Fin raysPerCluster × Fin 4 → ℝ, ‖(coeffCall g l 0 exFlatRays 0 fun c m i => x (c, m, i)).1 q u s 0‖ ^ 2
      ∂(Measure.pi fun _ => uniformPhase) = rayGain 100 f fs := by
  obtain ⟨strong, path, -, -, -, -, H⟩ := C100_average g l 0 exFlatRays 0 (fun _ => by norm_num [exFlatRays]) (fun _ _ => by norm_num [exFlatRays]) le_rfl
  rw [Finset.sum_congr rfl fun q _ => H q u s 0]
  have e1 : ∀ c m, exFlatRays.zoa c m = Real.pi / 2 := fun _ _ => rfl
  have e2 : ∀ c m, exFlatRays.aoa c m = 0 := fun _ _ => rfl
  have e3 : ∀ c m, exFlatRays.zod c m = Real.pi / 2 := fun _ _ => rfl
  have e4 : ∀ c m, exFlatRays.aod c m = 0 := fun _ _ => rfl
  have e5 : ∀ c m, exFlatRays.xpr c m = 100 := fun _ _ => rfl
  have e6 : ∀ c, exFlatRays.powers c = 1 / 2 := fun _ => rfl
  simp only [hl, e1, e2, e3, e4, e5, e6, hf, hs, Bool.false_eq_true, if_false]
  rw [Finset.sum_comm, Fin.sum_univ_two, Finset.sum_comm, Finset.sum_comm (s := Finset.univ (α := Fin (0 + 6)))]
  simp only [Finset.sum_ite_eq, Finset.mem_univ, if_true, Finset.sum_const, Finset.card_univ, Fintype.card_fin, nsmul_eq_mul]
  have hr : ((raysPerCluster : ℕ) : ℝ) = 20 := by norm_num [raysPerCluster]
  rw [hr]; ring

/-- C189 does not hold through the ionosphere: the Faraday rotation is always applied at the transmitter. Between a vertical antenna on the ground and a slanted one
in orbit, at 2 GHz, the average powers in the two directions differ. -/
theorem C189_violated : ¬ C189_statement := by
  intro H
  let au : ArrayArgs := { numRowsPerPanel := 1, numColsPerPanel := 1, polarization := "single", polarizationType := "V", pattern := "omni", carrierFrequency := 2e9 }
  let ab : ArrayArgs := { numRowsPerPanel := 1, numColsPerPanel := 1, polarization := "dual", polarizationType := "cross", pattern := "omni", carrierFrequency := 2e9 }
  obtain ⟨ut, hut, -, -⟩ := (C112_derived_classes 1 1 "single" "V" "omni" 2e9 none none (by simp [Spec.DocumentedArray])).1
  obtain ⟨bs, hbs, -, -⟩ := (C112_derived_classes 1 1 "dual" "cross" "omni" 2e9 none none (by simp [Spec.DocumentedArray])).1
  have hut : mkArray au = .ok ut := hut
  have hbs : mkArray ab = .ok bs := hbs
  obtain ⟨hperm, -, h1, -, -⟩ := C60_partition hbs
  have l1 : bs.indPol1.length = 1 := by rw [h1]; simp [ab]
  have hnd : (bs.indPol1 ++ bs.indPol2).Nodup := hperm.nodup_iff.2 List.nodup_range
  obtain ⟨v, hv⟩ : ∃ v, v ∈ bs.indPol1 := ⟨_, List.getElem_mem (n := 0) (by omega)⟩
  have hnot : v ∉ bs.indPol2 := fun hh => (List.nodup_append.1 hnd).2.2 v hv v hh rfl
  have put : ut.polarization = "single" := ((C111_constructor _).2 ut hut).1
  have fu := flat_field hut rfl 0 (by rw [if_pos put])
  have fb := flat_field hbs rfl v (by rw [if_pos (List.count_eq_zero.2 hnot)]; split <;> rfl)
  have su : ut.pol1.slant = 0 := by
    rcases ((C62_slants_partial hut).2.1 rfl).2 with h | h
    · exact h.2
    · exact absurd h.1 (by decide)
  obtain ⟨_, -, -, sb, -⟩ := (C62_slants_partial hbs).1 rfl
  rw [su, Real.cos_zero, Real.sin_zero] at fu
  rw [sb, Real.cos_neg, Real.sin_neg, Real.cos_pi_div_four, Real.sin_pi_div_four] at fb
  have key : ∀ q, _ := fun q => H 0 2e9 au ab ut bs exEnds 0 exFlatRays 0 (fun o => ‖o.1 q v 0 0‖ ^ 2) (by norm_num) hut hbs le_rfl
    (fun _ => by norm_num [exFlatRays]) (fun _ _ => by norm_num [exFlatRays])
  have hsum := Finset.sum_congr (rfl : (Finset.univ : Finset (Fin (0 + 6))) = Finset.univ) fun q _ => key q
  have up := flat_total ⟨2e9, ut, bs⟩ exEnds.toBs rfl v 0 _ _ fb rfl
  have down := flat_total ⟨2e9, bs, ut⟩ exEnds.toUt rfl 0 v _ _ fu rfl
  have hb : backwards exFlatRays = exFlatRays := rfl
  rw [hb] at hsum
  have heq := up.symm.trans (hsum.trans down)
  have fu' : fieldVector ut exEnds.toBs.txOri (Real.pi / 2) 0 0 = ![1, 0] := fu
  have fb' : fieldVector bs exEnds.toUt.txOri (Real.pi / 2) 0 v = ![√2 / 2, -(√2 / 2)] := fb
  simp only [fu', fb'] at heq
  have hb1 : ¬ exEnds.toBs.bsHeight < 600000 := by norm_num [exEnds, Ends.toBs]
  have hb2 : ¬ exEnds.toUt.bsHeight < 600000 := by norm_num [exEnds, Ends.toUt]
  simp only [Spec.faraday, if_neg hb1, if_neg hb2, rayGain, Matrix.cons_val] at heq
  have hpos : 0 < Real.sin (2 * (108 * (1e9 / 2e9) ^ 2 / 180 * Real.pi)) := by
    apply Real.sin_pos_of_pos_of_lt_pi
    · have := Real.pi_pos; positivity
    · have := Real.pi_pos; norm_num; linarith
  rw [Real.sin_two_mul] at hpos
  generalize 108 * (1e9 / 2e9 : ℝ) ^ 2 / 180 * Real.pi = ψ at heq hpos
  have h2 : √2 ^ 2 = (2 : ℝ) := Real.sq_sqrt (by norm_num)
  have hc := Real.sin_sq_add_cos_sq ψ
  have e1 : (√2 / 2) ^ 2 = (1 / 2 : ℝ) := by rw [div_pow, h2]; norm_num
  have e2 : (Real.cos ψ * (√2 / 2) - Real.sin ψ * -(√2 / 2)) ^ 2 = (1 + 2 * Real.sin ψ * Real.cos ψ) / 2 := by
    linear_combination (Real.cos ψ + Real.sin ψ) ^ 2 * e1 + hc / 2
  have e3 : (Real.sin ψ * (√2 / 2) + Real.cos ψ * -(√2 / 2)) ^ 2 = (1 - 2 * Real.sin ψ * Real.cos ψ) / 2 := by
    linear_combination (Real.sin ψ - Real.cos ψ) ^ 2 * e1 + hc / 2
  rw [e2, e3] at heq
  simp only [neg_sq, e1, mul_zero, mul_one, sub_zero, add_zero] at heq
  nlinarith [heq, hc, hpos]

/-- C189, both polarisations together: between arrays with two polarisations the average powers in the two directions agree also through the ionosphere. -/
theorem C189_sum_partial {n : ℕ} {au ab : ArrayArgs} (fc : ℝ) {ut bs : PanelArray} (hu : mkArray au = .ok ut) (hb : mkArray ab = .ok bs)
    (hdu : au.polarization = "dual") (hdb : ab.polarization = "dual") (e : Spec.Ends) (k : ℝ) (r : LinkRays (n + 2)) (cDs : ℝ) (hP : ∀ c, 0 ≤ r.powers c)
    (hx : ∀ c m, 0 < r.xpr c m) (hk : 0 ≤ k) :
    let up q v s t := ∫ x : Fin (n + 2) × Fin raysPerCluster × Fin 4 → ℝ,
      ‖(coeffCall ⟨fc, ut, bs⟩ e.toBs k (backwards r) cDs fun c m i => x (c, m, i)).1 q v s t‖ ^ 2 ∂(Measure.pi fun _ => uniformPhase)
    let down q s v t := ∫ x : Fin (n + 2) × Fin raysPerCluster × Fin 4 → ℝ,
      ‖(coeffCall ⟨fc, bs, ut⟩ e.toUt k r cDs fun c m i => x (c, m, i)).1 q s v t‖ ^ 2 ∂(Measure.pi fun _ => uniformPhase)
    ∀ s ∈ ut.indPol1, ∀ s' ∈ ut.indPol2, ∀ v ∈ bs.indPol1, ∀ v' ∈ bs.indPol2, ∀ t,
      ∑ q, (up q v s t + up q v s' t + up q v' s t + up q v' s' t) = ∑ q, (down q s v t + down q s' v t + down q s v' t + down q s' v' t) := by
  intro up down s hs s' hs' v hv v' hv' t
  obtain ⟨_, _, -, -, -, h1⟩ := C188_polarisations ⟨fc, ut, bs⟩ hb hu hdb hdu e.toBs k (backwards r) cDs hP hx hk
  obtain ⟨_, _, -, -, -, h2⟩ := C188_polarisations ⟨fc, bs, ut⟩ hu hb hdu hdb e.toUt k r cDs hP hx hk
  have h1 := (h1 v hv v' hv' s hs s' hs' t).2
  have h2 := (h2 s hs s' hs' v hv v' hv' t).2
  have e1 : ∑ q, (up q v s t + up q v s' t + up q v' s t + up q v' s' t) = _ := h1
  have e2 : ∑ q, (down q s v t + down q s' v t + down q s v' t + down q s' v' t) =
      ∑ q, (down q s v t + down q s v' t + down q s' v t + down q s' v' t) := Finset.sum_congr rfl fun q _ => by ring
  have e3 : ∑ q, (down q s v t + down q s v' t + down q s' v t + down q s' v' t) = _ := h2
  rw [e1, e2, e3]
  have hc : ∀ o a b o' a' b', elementGain bs o a b * elementGain ut o' a' b' = elementGain ut o' a' b' * elementGain bs o a b := fun _ _ _ _ _ _ => mul_comm _ _
  simp only [backwards, Ends.toBs, Ends.toUt, hc]
  rfl

variable {B N U n : ℕ}

theorem cirSampler_reverse (fc : ℝ) (ut bs : PanelArray) (k : PerLink B N U ℝ) (R : PerLink B N U (Except Err (LinkRays (n + 2))))
    (t' : TopologyT B U N) (t : TopologyT B N U) (cDs : PerLink B N U (Except Err ℝ))
    (phi : Fin B → ℕ → ℕ → Fin (n + 2) → Fin raysPerCluster → Fin 4 → ℝ) (b : Fin B) (m : Fin N) (u : Fin U) (e : Spec.Ends) (he : e.bsHeight < 600000)
    (ht' : t'.link b u m = e.toBs) (ht : t.link b m u = e.toUt) :
    let S' := cirSampler ⟨fc, ut, bs⟩ (swapAxes k) (raysUp (RaysT.ofLinks R)) t' (swapAxes cDs) phi b u m
    let S := cirSampler ⟨fc, bs, ut⟩ k (RaysT.ofLinks R) t cDs (fun b m u c r i => phi b u m c r (crossSwap i)) b m u
    (∃ er, S' = .error er ∧ S = .error er) ∨
      ∃ L' L, S' = .ok L' ∧ S = .ok L ∧ (∀ q v a t, L'.1 q v a t = L.1 q a v t) ∧ L'.2 = L.2 := by
  intro S' S
  rcases hR : R b m u with er | r
  · left
    refine ⟨er, ?_, ?_⟩
    · simp only [S', cirSampler, raysUp, RaysT.ofLinks, swapAxes, hR]; rfl
    · simp only [S, cirSampler, RaysT.ofLinks, hR]; rfl
  rcases hc : cDs b m u with er | cd
  · left
    refine ⟨er, ?_, ?_⟩
    · simp only [S', cirSampler, raysUp, RaysT.ofLinks, swapAxes, hR, hc]; rfl
    · simp only [S, cirSampler, RaysT.ofLinks, hR, hc]; rfl
  · right
    refine ⟨coeffCall ⟨fc, ut, bs⟩ e.toBs (k b m u) (backwards r) cd (phi b u m),
      coeffCall ⟨fc, bs, ut⟩ e.toUt (k b m u) r cd fun c r i => phi b u m c r (crossSwap i), ?_, ?_, ?_, ?_⟩
    · simp only [S', cirSampler, raysUp, RaysT.ofLinks, swapAxes, hR, hc, ht']; rfl
    · simp only [S, cirSampler, RaysT.ofLinks, hR, hc, ht]; rfl
    · intro q v a t
      exact (C189_link fc ut bs e he (k b m u) r cd (phi b u m) q v a t).1
    · exact (C189_link fc ut bs e he (k b m u) r cd (phi b u m) 0 0 0 0).2

theorem cirFinish_reverse (c c' : Config) (hp : c'.enablePathloss = c.enablePathloss) (hsf : c'.enableShadowFading = c.enableShadowFading) (fs fc : ℝ)
    (ut bs : PanelArray) (k sf : PerLink B N U ℝ) (PL : PerLink B N U (Except Err ℝ)) (R : PerLink B N U (Except Err (LinkRays (n + 2))))
    (t' : TopologyT B U N) (t : TopologyT B N U) (cDs : PerLink B N U (Except Err ℝ))
    (phi : Fin B → ℕ → ℕ → Fin (n + 2) → Fin raysPerCluster → Fin 4 → ℝ) (e : Fin B → Fin N → Fin U → Spec.Ends) (he : ∀ b m u, (e b m u).bsHeight < 600000)
    (ht' : ∀ b m u, t'.link b u m = (e b m u).toBs) (ht : ∀ b m u, t.link b m u = (e b m u).toUt) :
    let o := cirFinish c' fs ⟨fc, ut, bs⟩ (swapAxes k) (swapAxes sf) (swapAxes PL) (raysUp (RaysT.ofLinks R)) t' (swapAxes cDs) phi
    let o' := cirFinish c fs ⟨fc, bs, ut⟩ k sf PL (RaysT.ofLinks R) t cDs fun b m u c r i => phi b u m c r (crossSwap i)
    (∀ b m v u a q k, o.h b m v u a q k = o'.h b u a m v q k) ∧ ∀ b m u q, o.delays b m u q = o'.delays b u m q := by
  intro o o'
  constructor
  · intro b m v u a q i
    have H := cirSampler_reverse fc ut bs k R t' t cDs phi b m u (e b m u) (he b m u) (ht' b m u) (ht b m u)
    simp only at H
    simp only [o, o', cirFinish, step12, hp, hsf]
    generalize cirSampler ⟨fc, ut, bs⟩ (swapAxes k) (raysUp (RaysT.ofLinks R)) t' (swapAxes cDs) phi b u m = S' at H ⊢
    generalize cirSampler ⟨fc, bs, ut⟩ k (RaysT.ofLinks R) t cDs (fun b m u c r i => phi b u m c r (crossSwap i)) b m u = S at H ⊢
    rcases H with ⟨er, rfl, rfl⟩ | ⟨L', L, rfl, rfl, h1, -⟩
    · rfl
    simp only [bind, Except.bind, Except.map, swapAxes]
    by_cases hpl : c.enablePathloss = true
    · simp only [hpl, if_true]
      cases PL b m u with
      | error er => rfl
      | ok pl => simp only [h1]
    · simp only [hpl, Bool.false_eq_true, if_false, h1]
  · intro b m u q
    have H := cirSampler_reverse fc ut bs k R t' t cDs phi b m u (e b m u) (he b m u) (ht' b m u) (ht b m u)
    simp only at H
    simp only [o, o', cirFinish]
    generalize cirSampler ⟨fc, ut, bs⟩ (swapAxes k) (raysUp (RaysT.ofLinks R)) t' (swapAxes cDs) phi b u m = S' at H ⊢
    generalize cirSampler ⟨fc, bs, ut⟩ k (RaysT.ofLinks R) t cDs (fun b m u c r i => phi b u m c r (crossSwap i)) b m u = S at H ⊢
    rcases H with ⟨er, rfl, rfl⟩ | ⟨L', L, rfl, rfl, -, h2⟩
    · rfl
    · simp only [Except.map, h2]

theorem except_bind_ok {α β : Type} {x : Except Err α} {f : α → Except Err β} {y : β} (h : (x >>= f) = .ok y) : ∃ a, x = .ok a ∧ f a = .ok y := by
  cases x with
  | error e => cases h
  | ok a => exact ⟨a, rfl, h⟩

/-- C189, a call: below the ionosphere, a call for the uplink returns what a call for the downlink in the same state returns, read from the other end, if the
cross-polarised initial phases drawn for a link are exchanged (which does not change their law, see above). Links that are not a number are so in both. -/
theorem C189_call [NeZero B] [NeZero N] (c : Config) (hd : c.direction = "downlink") (always : Bool) (ut bs : PanelArray) (fs : ℝ) (s : ChanState B N U)
    (w : CirDraws B N U (n + 2)) (out : CirOut B N U (n + 6) ⊕ CirOut B U N (n + 6))
    (hc : cirCall { c with direction := "uplink" } always ut bs fs s w = .ok out)
    (hh : ∀ i, callInputs always s w.lsp = .ok i → (i.bsLoc 0 0).z < 600000) :
    ∃ o o', out = .inr o ∧
      cirCall c always ut bs fs s { w with phase := fun b m u c r i => w.phase b u m c r (crossSwap i) } = .ok (.inl o') ∧
      (∀ b m v u a q k, o.h b m v u a q k = o'.h b u a m v q k) ∧ ∀ b m u q, o.delays b m u q = o'.delays b u m q := by
  have hrays : raysCall { c with direction := "uplink" } = raysCall (B := B) (N := N) (U := U) (M := n + 2) c := rfl
  unfold cirCall at hc
  rw [hrays] at hc
  obtain ⟨i, hi, hc⟩ := except_bind_ok hc
  obtain ⟨ri, hri, hc⟩ := except_bind_ok hc
  by_cases hN : N = 1
  swap
  · rw [if_pos hN] at hc; cases hc
  rw [if_neg (not_not.2 hN)] at hc
  obtain ⟨PL, hPL, hc⟩ := except_bind_ok hc
  have hPL' : stepPathloss c s.topo = .ok PL := hPL
  rw [if_pos rfl] at hc
  have hnu : ¬ c.direction = "uplink" := by rw [hd]; decide
  have hdown : cirCall c always ut bs fs s { w with phase := fun b m u c r i => w.phase b u m c r (crossSwap i) } =
      .ok (.inl (cirFinish c fs ⟨c.carrierFrequency, bs, ut⟩ (fun b n u => (i.lsp b n u).kFactor) (fun b n u => (i.lsp b n u).sf) PL
        (RaysT.ofLinks (raysCall c ri w.rays)) (topologyDown c i (i.bsLoc 0 0).z w.satDirection)
        (fun b n u => (c.getReal .pcDS (i.los b n u)).map (· * 1e-9)) fun b m u c r i => w.phase b u m c r (crossSwap i))) := by
    unfold cirCall
    rw [hi]
    change (do let ri ← rayInputs s.topo i; _) = _
    rw [hri]
    simp only [bind, Except.bind, if_neg (not_not.2 hN), hPL', if_neg hnu]
  cases hc
  have hrev := cirFinish_reverse c { c with direction := "uplink" } rfl rfl fs c.carrierFrequency ut bs (fun b n u => (i.lsp b n u).kFactor)
    (fun b n u => (i.lsp b n u).sf) PL (raysCall c ri w.rays) (topologyUp c i (i.bsLoc 0 0).z w.satDirection) (topologyDown c i (i.bsLoc 0 0).z w.satDirection)
    (fun b n u => (c.getReal .pcDS (i.los b n u)).map (· * 1e-9)) w.phase (fun b m u => endsOf c i w.satDirection b m u) (fun _ _ _ => hh i hi)
    (fun b m u => topologyUp_link c i w.satDirection b m u) (fun b m u => topologyDown_link c i w.satDirection b m u)
  exact ⟨_, _, rfl, hdown, hrev.1, hrev.2⟩

/-- Two UTs below a platform at 20 km. -/
noncomputable def exHaps : ChanArgs 1 1 2 where
  utLoc := some fun _ u => ⟨10 * (u.val : ℝ), 0, 1.5⟩
  bsLoc := some fun _ _ => ⟨0, 0, 20000⟩
  utOri := some fun _ _ => ⟨0, 0, 0⟩
  bsOri := some fun _ _ => ⟨0, 0, 0⟩
  utVel := some fun _ _ => ⟨1, 0, 0⟩
  inState := some fun _ _ => false

/-- The hypotheses of `C189_call` are met after a call of `set_topology` for a platform below 600 km. -/
example (ut bs : PanelArray) (w : CirDraws 1 1 2 4) : ∃ (c : Config) (s : ChanState 1 1 2) (out : _), c.direction = "downlink" ∧
    cirCall { c with direction := "uplink" } false ut bs 1000 s w = .ok out ∧
    ∀ i, callInputs false s w.lsp = .ok i → (i.bsLoc 0 0).z < 600000 := by
  obtain ⟨c, h⟩ := exConfig
  have r := ChanReach.topology exHaps (exDraws 1 1 2) (exZ 1 1 2) (ChanReach.init (c := c) (always := false))
  have ap : ∀ x, Apart [ChanEvent.topology exHaps (exDraws 1 1 2) (exZ 1 1 2) x] := by
    intro x a d z x ut hm hut b u v hx _
    rw [List.mem_singleton] at hm
    injection hm with hm
    subst hm
    cases hut
    simp only [mul_eq_mul_left_iff, Nat.cast_inj] at hx
    rcases hx with hx | hx
    · exact Fin.ext hx
    · norm_num at hx
  have hok : (chanSetTopology c false (ChanState.init c) exHaps (exDraws 1 1 2) (exZ 1 1 2)).2 = .ok () := by
    rcases (channel_ready h rfl r (ap _)).1 _ _ _ _ List.mem_cons_self with e | e
    · exact e
    · have := complete_call h exHaps.toTopo (exDraws 1 1 2) (toTopo_physical _) rfl rfl
      rcases chanSet_cases (always := false) (s := ChanState.init c) h .init exHaps (exDraws 1 1 2) (exZ 1 1 2) with
        ⟨_, e1, -⟩ | ⟨e1, -⟩ | ⟨-, -, los, indoor, ut, mean, std, near, F, hst, hF, hc⟩
      · change (setTopology c (TopoState.init c) _ _).2 = _ at e1
        rw [this] at e1; cases e1
      · change (setTopology c (TopoState.init c) _ _).2 = _ at e1
        rw [this] at e1; cases e1
      · rcases hc with ⟨G, hG, mask, -, e2⟩ | ⟨hG, e2⟩
        · rw [e2]
        · rw [e2] at e; cases e
  rw [hok] at r
  obtain ⟨i, out, indoor, -, h1, -⟩ := C82_finite h r (ap _) ⟨_, List.mem_cons_self, trivial⟩ ut bs 1000 w
  have hl : ∀ {α : Type} (f : ChanArgs 1 1 2 → Option α),
      latest ChanEvent.succeeded (ChanEvent.passed f) [ChanEvent.topology exHaps (exDraws 1 1 2) (exZ 1 1 2) (.ok ())] = f exHaps := by
    intro α f
    cases hf : f exHaps <;> simp [latest, ChanEvent.passed, ChanEvent.succeeded, hf]
  have hdir : c.direction = "uplink" := (mkScenario_built h).dir_eq
  let s := (chanSetTopology c false (ChanState.init c) exHaps (exDraws 1 1 2) (exZ 1 1 2)).1
  have h2 : cirCall { ({ c with direction := "downlink" } : Config) with direction := "uplink" } false ut bs 1000 s w = .ok out := by
    have : ({ ({ c with direction := "downlink" } : Config) with direction := "uplink" } : Config) = c := by rw [← hdir]
    rw [this]; exact h1
  have h3 : ∀ i, callInputs false s w.lsp = .ok i → (i.bsLoc 0 0).z < 600000 := by
    intro i hi
    have := (scene_inputs h r (ap _) (hl (·.utLoc)) (hl (·.bsLoc)) (hl (·.utVel)) hi).2.2
    rw [this]
    norm_num
  exact ⟨{ c with direction := "downlink" }, s, out, rfl, h2, h3⟩

/-- Hypotheses of `C189_sum_partial` are met by two dual polarised arrays, see C188; those of `C189_link` and `C189_partial` by the satellite of the violation at a lower altitude. -/
example : ({ exEnds with bsHeight := 20000 } : Spec.Ends).bsHeight < 600000 := by norm_num

end OpenNTN
