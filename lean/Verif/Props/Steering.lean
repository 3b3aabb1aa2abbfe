import Verif.Spec.Steering
import Verif.Props.Power
import Verif.Props.Arrays
import Verif.Props.Orbit

/-
Ray and LoS coefficients against the equations of TR 38.901.
-/
namespace OpenNTN

open Classical Matrix

/-! ### C115: orientation -/

/-- C115. Orientation is bearing about the vertical axis after downtilt about the y axis after slant about the x axis; the boresight points to
azimuth `o 0`, tilted downwards by `o 1`. -/
theorem C115_orientation (o p : Fin 3 → ℝ) : rotPos o p = Spec.attitude o *ᵥ p ∧ reverseRot o *ᵥ p = (Spec.attitude o)ᵀ *ᵥ p ∧
    rotPos o ![1, 0, 0] = Spec.sphereDirection (Real.pi / 2 + o 1) (o 0) := by
  have h : forwardRot o = Spec.attitude o := by
    ext i j
    fin_cases i <;> fin_cases j <;>
      simp [forwardRot, Spec.attitude, Spec.turnZ, Spec.turnY, Spec.turnX, Matrix.mul_apply, Fin.sum_univ_three] <;> ring
  refine ⟨by rw [rotPos, h], by rw [reverseRot, h], ?_⟩
  funext i
  fin_cases i <;> simp [rotPos, forwardRot, Spec.sphereDirection, Matrix.mulVec, dotProduct, Fin.sum_univ_three, add_comm (Real.pi / 2),
    Real.sin_add_pi_div_two, Real.cos_add_pi_div_two] <;> ring

/-- A base station with a downtilt of 10 degrees and bearing north looks north and below the horizon. -/
example : rotPos ![Real.pi / 2, Real.pi / 18, 0] ![1, 0, 0] = ![0, Real.cos (Real.pi / 18), -Real.sin (Real.pi / 18)] := by
  rw [(C115_orientation _ 0).2.2]
  funext i
  fin_cases i <;> simp [Spec.sphereDirection, add_comm (Real.pi / 2), Real.sin_add_pi_div_two, Real.cos_add_pi_div_two]

/-! ### C116: rays -/

/-- Antenna `u` of an array that was built: its position, and pattern and slant of its polarization. -/
def Spec.IsAntenna (arr : PanelArray) (u : ℕ) (A : Spec.Antenna) : Prop :=
  A.position = arr.antPos u ∧ (u ∈ arr.indPol1 → A.power = arr.pol1.pattern.power ∧ A.slant = arr.pol1.slant) ∧
  ∀ e, arr.pol2 = some e → u ∈ arr.indPol2 → A.power = e.pattern.power ∧ A.slant = e.slant

theorem sin_local {o : Fin 3 → ℝ} {theta phi : ℝ} (h : Spec.OffAxis o theta phi) : Real.sin (gcsToLcs o theta phi).1 ≠ 0 := by
  obtain ⟨-, hr, h0, hpi, -⟩ := C43_angles o theta phi
  intro hs
  have hc := Real.sin_sq_add_cos_sq (gcsToLcs o theta phi).1
  rw [hs] at hc
  have hz : ∀ c : ℝ, Real.cos (gcsToLcs o theta phi).1 = c → Spec.sphereDirection (gcsToLcs o theta phi).1 (gcsToLcs o theta phi).2 = c • ![0, 0, 1] := by
    intro c hc
    funext i; fin_cases i <;> simp [Spec.sphereDirection, hs, hc]
  have h2 : (Real.cos (gcsToLcs o theta phi).1 - 1) * (Real.cos (gcsToLcs o theta phi).1 + 1) = 0 := by linarith
  rw [(C115_orientation o _).1] at hr
  rcases mul_eq_zero.1 h2 with e | e
  · rw [hz 1 (by linarith), one_smul] at hr
    exact h.1 hr.symm
  · rw [hz (-1) (by linarith), neg_one_smul, Matrix.mulVec_neg] at hr
    exact h.2 hr.symm

theorem fieldAt_inj {theta phi : ℝ} {F G : Fin 2 → ℝ} (h : Spec.fieldAt theta phi F = Spec.fieldAt theta phi G) : F = G := by
  have h1 := Real.sin_sq_add_cos_sq theta
  have h2 := Real.sin_sq_add_cos_sq phi
  have key : ∀ F : Fin 2 → ℝ, Spec.zenithVec theta phi ⬝ᵥ Spec.fieldAt theta phi F = F 0 ∧ Spec.azimuthVec phi ⬝ᵥ Spec.fieldAt theta phi F = F 1 := by
    intro F
    constructor <;> simp [Spec.fieldAt, Spec.zenithVec, Spec.azimuthVec, dotProduct, Fin.sum_univ_three] <;> grind
  funext i
  fin_cases i
  · exact (key F).1.symm.trans (h ▸ (key G).1)
  · exact (key F).2.symm.trans (h ▸ (key G).2)

/-- Off axis the field of an antenna is unique. -/
theorem isField_unique {A : Spec.Antenna} {o : Fin 3 → ℝ} {theta phi : ℝ} (h : Spec.OffAxis o theta phi) {F G : Fin 2 → ℝ}
    (hF : Spec.IsField A o theta phi F) (hG : Spec.IsField A o theta phi G) : F = G := by
  obtain ⟨t, p, a1, a2, a3, a4, a5, a6⟩ := hF
  obtain ⟨t', p', b1, b2, b3, b4, b5, b6⟩ := hG
  have hd : Spec.sphereDirection t p = Spec.sphereDirection t' p' := by
    have h5 := a5.trans b5.symm
    rw [← (C115_orientation o _).1, ← (C115_orientation o _).1] at h5
    have := congrArg (reverseRot o *ᵥ ·) h5
    simpa only [(C42_rotation o).2.2.2.1] using this
  have ht : t = t' := by
    have := congrFun hd 2
    simp only [Spec.sphereDirection, Matrix.cons_val] at this
    exact Real.injOn_cos ⟨a1, a2⟩ ⟨b1, b2⟩ this
  subst ht
  have hs : 0 < Real.sin t := by
    refine lt_of_le_of_ne (Real.sin_nonneg_of_mem_Icc ⟨a1, a2⟩) fun e => ?_
    have hc := Real.sin_sq_add_cos_sq t
    rw [← e] at hc
    have h2 : (Real.cos t - 1) * (Real.cos t + 1) = 0 := by linarith
    have hz : ∀ c : ℝ, Real.cos t = c → Spec.sphereDirection t p = c • ![0, 0, 1] := by
      intro c hc
      funext i; fin_cases i <;> simp [Spec.sphereDirection, ← e, hc]
    rcases mul_eq_zero.1 h2 with e | e
    · rw [hz 1 (by linarith), one_smul] at a5
      exact h.1 a5.symm
    · rw [hz (-1) (by linarith), neg_one_smul, Matrix.mulVec_neg] at a5
      exact h.2 a5.symm
  have hp : p = p' := by
    have e0 := congrFun hd 0
    have e1 := congrFun hd 1
    simp only [Spec.sphereDirection, Matrix.cons_val] at e0 e1
    have c0 := mul_left_cancel₀ hs.ne' e0
    have c1 := mul_left_cancel₀ hs.ne' e1
    have hp := Complex.arg_cos_add_sin_mul_I (θ := p) ⟨a3, a4⟩
    have hp' := Complex.arg_cos_add_sin_mul_I (θ := p') ⟨b3, b4⟩
    rw [← hp, ← hp', ← Complex.ofReal_cos, ← Complex.ofReal_sin, ← Complex.ofReal_cos, ← Complex.ofReal_sin, c0, c1]
  subst hp
  exact fieldAt_inj (a6.trans b6.symm)

/-- Off axis the fields of the code are the fields of the mounted antennas. -/
theorem fieldVector_isField {a : ArrayArgs} {arr : PanelArray} (h : mkArray a = .ok arr) {u : ℕ} (hu : u < arr.numAnt) {A : Spec.Antenna}
    (hA : Spec.IsAntenna arr u A) {o : Fin 3 → ℝ} {theta phi : ℝ} (ho : Spec.OffAxis o theta phi) :
    Spec.IsField A o theta phi (fieldVector arr o theta phi u) := by
  obtain ⟨-, hr, h0, hpi, h1, h2⟩ := C43_angles o theta phi
  refine ⟨(gcsToLcs o theta phi).1, (gcsToLcs o theta phi).2, h0, hpi, h1, h2, by rw [← (C115_orientation o _).1, hr], ?_⟩
  have key : ∀ e : Element, A.power = e.pattern.power → A.slant = e.slant →
      Spec.fieldAt theta phi (l2gResponse (e.field (gcsToLcs o theta phi).1 (gcsToLcs o theta phi).2) o theta phi) =
        Spec.attitude o *ᵥ Spec.fieldAt (gcsToLcs o theta phi).1 (gcsToLcs o theta phi).2
          ![Real.sqrt (A.power (gcsToLcs o theta phi).1 (gcsToLcs o theta phi).2) * Real.cos A.slant,
            Real.sqrt (A.power (gcsToLcs o theta phi).1 (gcsToLcs o theta phi).2) * Real.sin A.slant] := by
    intro e hp hs
    rw [(C44_field o theta phi _ (sin_local ho)).1, (C115_orientation o _).1, hp, hs]
    rfl
  obtain ⟨hpart, -, -, -, hsingle⟩ := C60_partition h
  have hmem : u ∈ arr.indPol1 ∨ u ∈ arr.indPol2 := by
    have := (hpart.mem_iff (a := u)).2 (List.mem_range.2 hu)
    simpa using this
  have hpol : arr.polarization = a.polarization := ((C111_constructor a).2 arr h).1
  have hslant := C62_slants_partial h
  have hdoc := ((C111_constructor a).1.1 ⟨arr, h⟩).1.1
  simp only [fieldVector]
  split_ifs with c1 c2
  · have h1 : u ∈ arr.indPol1 := by
      rw [hpol] at c1
      simpa [hsingle c1] using hmem
    exact key _ (hA.2.1 h1).1 (hA.2.1 h1).2
  · have h1 : u ∈ arr.indPol1 := by
      rcases hmem with hm | hm
      · exact hm
      · exact absurd (List.count_eq_zero.1 c2) (not_not.2 hm)
    exact key _ (hA.2.1 h1).1 (hA.2.1 h1).2
  · have hm : u ∈ arr.indPol2 := by
      by_contra hn
      exact c2 (List.count_eq_zero.2 hn)
    rw [hpol] at c1
    have hd : a.polarization = "dual" := by
      rcases hdoc with hd | hd
      · exact absurd hd.1 c1
      · exact hd.1
    obtain ⟨e2, he2, -⟩ := hslant.1 hd
    rw [he2]
    exact key _ (hA.2.2 e2 he2 hm).1 (hA.2.2 e2 he2 hm).2

/-- Doppler frequency of a ray: the UT moves towards direction `r` with `r · v`; the satellite adds its speed if it is modelled. -/
noncomputable def Spec.dopplerFrequency (lambda : ℝ) (l : LinkTopo) (r : Fin 3 → ℝ) : ℝ :=
  (r ⬝ᵥ l.velocity + if 600000 ≤ l.bsHeight ∧ l.doppler = true then l.satSpeed else 0) / lambda

theorem dopplerTerm_cycles (g : CoeffGen) (l : LinkTopo) (aoa zoa aod zod t : ℝ) :
    dopplerTerm g l aoa zoa aod zod t = Spec.cycles (Spec.dopplerFrequency (299792458 / g.fc) l
      (if l.movingRx then Spec.sphereDirection zoa aoa else Spec.sphereDirection zod aod) * t) := by
  unfold dopplerTerm Spec.cycles
  rw [mul_comm Complex.I]
  congr 2
  norm_cast
  simp only [dopplerExponent, Spec.dopplerFrequency, CoeffGen.lambda0, speedOfLight]
  have e : (if l.movingRx = true then unitSphere zoa aoa else unitSphere zod aod) =
    if l.movingRx = true then Spec.sphereDirection zoa aoa else Spec.sphereDirection zod aod := rfl
  rw [e]
  generalize (if l.movingRx = true then Spec.sphereDirection zoa aoa else Spec.sphereDirection zod aod) = r
  have : ∑ k, r k * l.velocity k = r ⬝ᵥ l.velocity := rfl
  rw [this]
  split_ifs <;> ring

theorem arrayOffset_cycles (g : CoeffGen) (l : LinkTopo) (aoa aod zoa zod : ℝ) (u s : ℕ) :
    arrayOffset g l aoa aod zoa zod u s =
      Spec.cycles ((Spec.sphereDirection zoa aoa ⬝ᵥ Spec.attitude l.rxOri *ᵥ g.rx.antPos u) / (299792458 / g.fc)) *
      Spec.cycles ((Spec.sphereDirection zod aod ⬝ᵥ Spec.attitude l.txOri *ᵥ g.tx.antPos s) / (299792458 / g.fc)) := by
  simp only [arrayOffset, Spec.cycles, ← (C115_orientation _ _).1, CoeffGen.lambda0, speedOfLight, mul_comm Complex.I]
  congr 3
  · norm_cast
    rw [div_mul_eq_mul_div, mul_div_assoc']
    rfl
  · norm_cast
    rw [div_mul_eq_mul_div, mul_div_assoc']
    rfl

/-- C116. Every ray has the coefficient of TR 38.901 (7.5-22), with the ionospheric rotation of TR 38.811: square root of its share of the cluster power,
fields of the two antennas coupled by the random phases and the cross polarization ratio, plane wave phases of the antenna positions, and a
rotation at the Doppler frequency. -/
theorem C116_ray {M : ℕ} {ar as : ArrayArgs} (g : CoeffGen) (hrx : mkArray ar = .ok g.rx) (htx : mkArray as = .ok g.tx) (l : LinkTopo)
    (r : LinkRays M) (phi : Fin M → Fin raysPerCluster → Fin 4 → ℝ) (c : Fin M) (m : Fin raysPerCluster) {u s : ℕ} (hu : u < g.rx.numAnt)
    (hs : s < g.tx.numAnt) {Au As : Spec.Antenna} (hAu : Spec.IsAntenna g.rx u Au) (hAs : Spec.IsAntenna g.tx s As)
    (h1 : Spec.OffAxis l.rxOri (r.zoa c m) (r.aoa c m)) (h2 : Spec.OffAxis l.txOri (r.zod c m) (r.aod c m)) (t : ℝ) :
    let arrival := Spec.sphereDirection (r.zoa c m) (r.aoa c m)
    let departure := Spec.sphereDirection (r.zod c m) (r.aod c m)
    let lambda := 299792458 / g.fc
    let e (k : Fin 4) := Complex.exp (phi c m k * Complex.I)
    let cross : ℂ := ((1 / Real.sqrt (r.xpr c m) : ℝ) : ℂ)
    ∃ Fu Fs, Spec.IsField Au l.rxOri (r.zoa c m) (r.aoa c m) Fu ∧ Spec.IsField As l.txOri (r.zod c m) (r.aod c m) Fs ∧
      let Fs' := Spec.faraday g.fc l.bsHeight Fs
      nlosRay g l r phi c m u s t = ((Real.sqrt (r.powers c / 20) : ℝ) : ℂ) *
        (Fu 0 * Fs' 0 * e 0 + Fu 0 * Fs' 1 * cross * e 1 + Fu 1 * Fs' 0 * cross * e 2 + Fu 1 * Fs' 1 * e 3) *
        Spec.cycles ((arrival ⬝ᵥ Spec.attitude l.rxOri *ᵥ Au.position) / lambda) *
        Spec.cycles ((departure ⬝ᵥ Spec.attitude l.txOri *ᵥ As.position) / lambda) *
        Spec.cycles (Spec.dopplerFrequency lambda l (if l.movingRx then arrival else departure) * t) := by
  intro arrival departure lambda e cross
  refine ⟨_, _, fieldVector_isField hrx hu hAu h1, fieldVector_isField htx hs hAs h2, ?_⟩
  simp only [nlosRay, fieldMatrix]
  rw [withFaraday_apply, dopplerTerm_cycles, arrayOffset_cycles, hAu.1, hAs.1]
  generalize Spec.faraday g.fc l.bsHeight (fieldVector g.tx l.txOri (r.zod c m) (r.aod c m) s) = tx
  generalize fieldVector g.rx l.rxOri (r.zoa c m) (r.aoa c m) u = rx
  simp only [Fin.sum_univ_two, Matrix.mulVec, dotProduct, phaseMatrix, Matrix.of_apply, Matrix.cons_val, raysPerCluster, e, cross, arrival, departure,
    lambda, mul_comm Complex.I, Real.sqrt_div zero_le_one, Real.sqrt_one]
  push_cast
  ring

theorem offAxis_zero {theta phi : ℝ} (h : Real.sin theta * Real.cos phi ≠ 0) : Spec.OffAxis 0 theta phi := by
  refine ⟨fun e => h ?_, fun e => h ?_⟩ <;>
  · have := congrFun e 0
    rw [← (C115_orientation _ _).1] at this
    simpa [Spec.sphereDirection, rotPos, forwardRot, Matrix.mulVec, dotProduct, Fin.sum_univ_three] using this

/-- A vertically polarized omnidirectional antenna for 2 GHz. -/
theorem exAntenna_ok : ∃ arr, mkAntenna "single" "V" "omni" 2e9 = .ok arr ∧ arr.numAnt = 1 ∧
    Spec.IsAntenna arr 0 ⟨0, fun _ _ => 1, 0⟩ ∧ arr.polarization = "single" ∧ arr.pol1 = ⟨.omni, 0⟩ := by
  obtain ⟨arr, h, hn, hp⟩ := (C112_derived_classes 1 1 "single" "V" "omni" 2e9 none none (by simp [Spec.DocumentedArray])).1
  have hn : arr.numAnt = 1 := by rw [hn]; simp [Spec.polarizations]
  obtain ⟨-, h2, h3⟩ := C62_slants_partial h
  obtain ⟨h4, h5⟩ := h2 rfl
  have hpat : arr.pol1.pattern = .omni := by simpa [patternOf] using h3.symm
  have hsl : arr.pol1.slant = 0 := by
    rcases h5 with h5 | h5
    · exact h5.2
    · exact absurd h5.1 (by decide)
  refine ⟨arr, h, hn, ⟨(hp 0 (by omega)).symm, fun _ => ⟨?_, hsl.symm⟩, ?_⟩, ((C111_constructor _).2 arr h).1, ?_⟩
  · rw [hpat]; rfl
  · intro e he; rw [h4] at he; cases he
  · cases h6 : arr.pol1 with | mk a b => rw [h6] at hpat hsl; simp only at hpat hsl; rw [hpat, hsl]

/-- The hypotheses are met for a link to a satellite. -/
example : ∃ (arr : PanelArray) (_ : mkAntenna "single" "V" "omni" 2e9 = .ok arr) (A : Spec.Antenna), 0 < arr.numAnt ∧ Spec.IsAntenna arr 0 A ∧
    ∀ c m, Spec.OffAxis (exSatLink 30 0).rxOri (exLinkRays.zoa c m) (exLinkRays.aoa c m) ∧
      Spec.OffAxis (exSatLink 30 0).txOri (exLinkRays.zod c m) (exLinkRays.aod c m) := by
  obtain ⟨arr, h, hn, hA, -⟩ := exAntenna_ok
  refine ⟨arr, h, _, by omega, hA, fun c m => ⟨offAxis_zero ?_, offAxis_zero ?_⟩⟩ <;> simp only [exLinkRays, Real.cos_zero, mul_one]
  · exact (Real.sin_pos_of_pos_of_lt_pi (by norm_num) (by linarith [Real.pi_gt_three])).ne'
  · exact (Real.sin_pos_of_pos_of_lt_pi (by norm_num) (by linarith [Real.pi_gt_three])).ne'

/-! ### C117: the LoS coefficient -/

/-- LoS coefficient of TR 38.901 (7.5-29) with phase `x` (in wavelengths) for the propagation delay. -/
def Spec.LosCoefficient (g : CoeffGen) (l : LinkTopo) (Au As : Spec.Antenna) (x t : ℝ) (h : ℂ) : Prop :=
  let arrival := Spec.sphereDirection l.losZoa l.losAoa
  let departure := Spec.sphereDirection l.losZod l.losAod
  let lambda := 299792458 / g.fc
  ∃ Fu Fs, Spec.IsField Au l.rxOri l.losZoa l.losAoa Fu ∧ Spec.IsField As l.txOri l.losZod l.losAod Fs ∧
    let Fs' := Spec.faraday g.fc l.bsHeight Fs
    h = ((Fu 0 * Fs' 0 - Fu 1 * Fs' 1 : ℝ) : ℂ) * Spec.cycles x *
      Spec.cycles ((arrival ⬝ᵥ Spec.attitude l.rxOri *ᵥ Au.position) / lambda) *
      Spec.cycles ((departure ⬝ᵥ Spec.attitude l.txOri *ᵥ As.position) / lambda) *
      Spec.cycles (Spec.dopplerFrequency lambda l (if l.movingRx then arrival else departure) * t)

/-- The full claim of C117: the LoS path has the coefficient of TR 38.901 (7.5-29), whose phase decreases by one turn for every wavelength of
distance. -/
def C117_statement : Prop :=
  ∀ (ar as : ArrayArgs) (g : CoeffGen) (_ : mkArray ar = .ok g.rx) (_ : mkArray as = .ok g.tx) (l : LinkTopo) (u s : ℕ),
    u < g.rx.numAnt → s < g.tx.numAnt → ∀ Au As, Spec.IsAntenna g.rx u Au → Spec.IsAntenna g.tx s As →
    Spec.OffAxis l.rxOri l.losZoa l.losAoa → Spec.OffAxis l.txOri l.losZod l.losAod → ∀ t,
    Spec.LosCoefficient g l Au As (-(l.distance3d / (299792458 / g.fc))) t (losCoeff g l u s t)

/-- C117, what holds: all factors are those of the standard, except that the phase increases with distance. -/
theorem C117_los_partial {ar as : ArrayArgs} (g : CoeffGen) (hrx : mkArray ar = .ok g.rx) (htx : mkArray as = .ok g.tx) (l : LinkTopo)
    {u s : ℕ} (hu : u < g.rx.numAnt) (hs : s < g.tx.numAnt) {Au As : Spec.Antenna} (hAu : Spec.IsAntenna g.rx u Au) (hAs : Spec.IsAntenna g.tx s As)
    (h1 : Spec.OffAxis l.rxOri l.losZoa l.losAoa) (h2 : Spec.OffAxis l.txOri l.losZod l.losAod) (t : ℝ) :
    Spec.LosCoefficient g l Au As (l.distance3d / (299792458 / g.fc)) t (losCoeff g l u s t) := by
  refine ⟨_, _, fieldVector_isField hrx hu hAu h1, fieldVector_isField htx hs hAs h2, ?_⟩
  simp only [losCoeff, fieldMatrix]
  rw [withFaraday_apply, dopplerTerm_cycles, arrayOffset_cycles, hAu.1, hAs.1]
  generalize Spec.faraday g.fc l.bsHeight (fieldVector g.tx l.txOri l.losZod l.losAod s) = tx
  generalize fieldVector g.rx l.rxOri l.losZoa l.losAoa u = rx
  have e : Complex.exp (Complex.I * (2 * Real.pi * l.distance3d / g.lambda0 : ℝ)) = Spec.cycles (l.distance3d / (299792458 / g.fc)) := by
    rw [Spec.cycles, mul_comm, CoeffGen.lambda0, speedOfLight, mul_div_assoc]
  rw [e]
  simp only [Fin.sum_univ_two, Matrix.mulVec, dotProduct, losPhaseMatrix, Matrix.of_apply, Matrix.cons_val]
  push_cast
  ring

/-- The hypotheses are met for a link to a satellite. -/
theorem exSat_offAxis (el dir : ℝ) : Spec.OffAxis (exSatLink el dir).rxOri (exSatLink el dir).losZoa (exSatLink el dir).losAoa ∧
    Spec.OffAxis (exSatLink el dir).txOri (exSatLink el dir).losZod (exSatLink el dir).losAod := by
  refine ⟨offAxis_zero ?_, offAxis_zero ?_⟩ <;> simp only [exSatLink, Real.cos_zero, mul_one]
  · exact (Real.sin_pos_of_pos_of_lt_pi (by norm_num) (by linarith [Real.pi_gt_three])).ne'
  · exact (Real.sin_pos_of_pos_of_lt_pi (by norm_num) (by linarith [Real.pi_gt_three])).ne'

theorem exField {arr : PanelArray} (h1 : arr.polarization = "single") (h2 : arr.pol1 = ⟨.omni, 0⟩) {theta : ℝ} (h0 : 0 < Real.sin theta) (u : ℕ) :
    fieldVector arr 0 theta 0 u = ![1, 0] := by
  have hpsi : computePsi 0 theta 0 = 0 := by
    simp only [computePsi, Pi.zero_apply, Real.sin_zero, Real.cos_zero, zero_mul, one_mul, sub_zero, mul_zero, zero_add, mul_one, add_zero]
    exact Complex.arg_ofReal_of_nonneg h0.le
  simp only [fieldVector, h1, if_true, h2, l2gResponse, hpsi, Element.field, Pattern.power, patternOmni]
  funext i; fin_cases i <;> simp [Matrix.mulVec, dotProduct, Fin.sum_univ_two]

/-- The code adds the phase of the distance instead of subtracting it: a counterexample is a satellite at a distance of 4 000 000 and a quarter wavelengths. -/
theorem C117_violated : ¬ C117_statement := by
  intro H
  obtain ⟨arr, h, hn, hA, hp, hpol⟩ := exAntenna_ok
  let l : LinkTopo := { exSatLink 30 0 with distance3d := (4000000 + 1 / 4) * (299792458 / 2e9) }
  have g1 : (0 : ℝ) < Real.sin 1 := Real.sin_pos_of_pos_of_lt_pi (by norm_num) (by linarith [Real.pi_gt_three])
  have g2 : (0 : ℝ) < Real.sin 2 := Real.sin_pos_of_pos_of_lt_pi (by norm_num) (by linarith [Real.pi_gt_three])
  obtain ⟨o1, o2⟩ := exSat_offAxis 30 0
  obtain ⟨Fu, Fs, a1, a2, a3⟩ := H _ _ ⟨2e9, arr, arr⟩ h h l 0 0 (by simp [hn]) (by simp [hn]) _ _ hA hA o1 o2 0
  obtain ⟨Gu, Gs, b1, b2, b3⟩ := C117_los_partial ⟨2e9, arr, arr⟩ h h l (u := 0) (s := 0) (by simp [hn]) (by simp [hn]) hA hA o1 o2 0
  obtain rfl := isField_unique o1 a1 b1
  obtain rfl := isField_unique o2 a2 b2
  have e1 : Fu = ![1, 0] := isField_unique o1 a1 (exField hp hpol g1 0 ▸ fieldVector_isField h (by omega) hA o1)
  have e2 : Fs = ![1, 0] := isField_unique o2 a2 (exField hp hpol g2 0 ▸ fieldVector_isField h (by omega) hA o2)
  rw [a3] at b3
  have hc : ∀ x, Spec.cycles x ≠ 0 := fun x => Complex.exp_ne_zero _
  have b4 := mul_right_cancel₀ (hc _) (mul_right_cancel₀ (hc _) (mul_right_cancel₀ (hc _) b3))
  have hd : l.distance3d / (299792458 / 2e9) = 4000000 + 1 / 4 := by simp only [l]; norm_num
  simp only [hd] at b4
  have hfar : Fu 0 * Spec.faraday 2e9 l.bsHeight Fs 0 - Fu 1 * Spec.faraday 2e9 l.bsHeight Fs 1 ≠ 0 := by
    have hpi := Real.pi_pos
    have hh : l.bsHeight = 600000 := rfl
    rw [e1, e2, hh, Spec.faraday, if_neg (by norm_num)]
    simp only [Matrix.cons_val_zero, Matrix.cons_val_one, mul_one, mul_zero, sub_zero, zero_mul, one_mul]
    refine (Real.cos_pos_of_mem_Ioo ⟨?_, ?_⟩).ne' <;> norm_num <;> nlinarith
  have b5 := mul_left_cancel₀ (Complex.ofReal_ne_zero.2 hfar) b4
  have key : Spec.cycles (4000000 + 1 / 4) = Complex.I ∧ Spec.cycles (-(4000000 + 1 / 4)) = -Complex.I := by
    have n1 : Complex.exp ((4000000 : ℤ) * (2 * Real.pi * Complex.I)) = 1 := Complex.exp_int_mul_two_pi_mul_I 4000000
    have n2 : Complex.exp ((-4000000 : ℤ) * (2 * Real.pi * Complex.I)) = 1 := Complex.exp_int_mul_two_pi_mul_I (-4000000)
    constructor
    · rw [Spec.cycles, show ((2 * Real.pi * (4000000 + 1 / 4) : ℝ) : ℂ) * Complex.I = (4000000 : ℤ) * (2 * Real.pi * Complex.I) + Real.pi / 2 * Complex.I by
        push_cast; ring, Complex.exp_add, n1, Complex.exp_pi_div_two_mul_I, one_mul]
    · rw [Spec.cycles, show ((2 * Real.pi * -(4000000 + 1 / 4) : ℝ) : ℂ) * Complex.I = (-4000000 : ℤ) * (2 * Real.pi * Complex.I) + -(Real.pi / 2 * Complex.I) by
        push_cast; ring, Complex.exp_add, n2, Complex.exp_neg, Complex.exp_pi_div_two_mul_I, one_mul, Complex.inv_I]
  rw [key.1, key.2] at b5
  have := congrArg Complex.im b5
  norm_num at this

end OpenNTN
