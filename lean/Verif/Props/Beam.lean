import Verif.Props.MimoRank
import Verif.Props.Steering
import Verif.Props.Statistics
import Verif.Props.Doppler

/-
C209: beams of an array. Gain of the best weights, the beam pattern of a panel array, and where it has full gain.
-/
namespace OpenNTN

open Spec Matrix

/-- Phases of a plane wave in direction `d` at the antennas of an array with orientation `o`. -/
noncomputable def Spec.wave (fc : ℝ) (arr : PanelArray) (o d : Fin 3 → ℝ) (u : ℕ) : ℂ :=
  cycles ((d ⬝ᵥ attitude o *ᵥ arr.antPos u) / (299792458 / fc))

/-- Output of weights `w` at `R` receive antennas for the signal sent with weights `v` at `T` transmit antennas. -/
noncomputable def Spec.beamed (h : Coeff) (R T : ℕ) (t : ℝ) (w : Fin R → ℂ) (v : Fin T → ℂ) : ℂ :=
  ∑ u : Fin R, ∑ s : Fin T, (starRingEnd ℂ) (w u) * h u s t * v s

/-- Gain towards `d` of an array whose weights are matched to `d'`, relative to the gain towards `d'`. -/
noncomputable def Spec.beamGain (fc : ℝ) (arr : PanelArray) (o d' d : Fin 3 → ℝ) : ℝ :=
  ‖∑ u ∈ Finset.range arr.numAnt, (starRingEnd ℂ) (wave fc arr o d' u) * wave fc arr o d u‖ ^ 2 / (arr.numAnt : ℝ) ^ 2

/-- Gain of `n` sources in a row whose phases advance by `x` turns from one to the next, relative to equal phases. -/
noncomputable def Spec.rowGain (n : ℕ) (x : ℝ) : ℝ :=
  if Real.sin (Real.pi * x) = 0 then 1 else (Real.sin (n * (Real.pi * x)) / (n * Real.sin (Real.pi * x))) ^ 2

/-! ### One row -/

theorem cycles_norm (x : ℝ) : ‖cycles x‖ = 1 := Complex.norm_exp_ofReal_mul_I _

theorem cycles_pow (x : ℝ) (n : ℕ) : cycles x ^ n = cycles (n * x) := by
  unfold cycles
  rw [← Complex.exp_nat_mul]
  congr 1
  push_cast
  ring

theorem cycles_sub_one (x : ℝ) : ‖cycles x - 1‖ = 2 * |Real.sin (Real.pi * x)| := by
  unfold cycles
  rw [mul_comm, Complex.norm_exp_I_mul_ofReal_sub_one, norm_mul, Real.norm_two, Real.norm_eq_abs]
  congr 3
  ring

theorem row_sum {n : ℕ} (hn : 0 < n) (x : ℝ) : ‖∑ k ∈ Finset.range n, cycles (k * x)‖ ^ 2 = (n : ℝ) ^ 2 * rowGain n x := by
  simp only [← cycles_pow]
  have hn' : (n : ℝ) ≠ 0 := by positivity
  unfold rowGain
  split_ifs with h
  · have : cycles x = 1 := by
      rw [← sub_eq_zero, ← norm_eq_zero, cycles_sub_one, h, abs_zero, mul_zero]
    simp [this]
  · have h2 := congrArg norm (mul_geom_sum (cycles x) n)
    rw [norm_mul, cycles_pow, cycles_sub_one, cycles_sub_one, mul_assoc, mul_right_inj' two_ne_zero] at h2
    rw [show Real.pi * (n * x) = n * (Real.pi * x) by ring] at h2
    rw [div_pow, mul_pow, ← sq_abs (Real.sin (n * (Real.pi * x))), ← sq_abs (Real.sin (Real.pi * x)), ← h2]
    have h3 : |Real.sin (Real.pi * x)| ≠ 0 := abs_ne_zero.2 h
    field_simp

theorem sin_mul_le (n : ℕ) (y : ℝ) : |Real.sin (n * y)| ≤ n * |Real.sin y| := by
  induction n with
  | zero => simp
  | succ n ih =>
    push_cast
    rw [add_mul, one_mul, Real.sin_add]
    calc |Real.sin (n * y) * Real.cos y + Real.cos (n * y) * Real.sin y|
        ≤ |Real.sin (n * y)| * |Real.cos y| + |Real.cos (n * y)| * |Real.sin y| := by
          rw [← abs_mul, ← abs_mul]; exact abs_add_le _ _
      _ ≤ |Real.sin (n * y)| * 1 + 1 * |Real.sin y| := by
          gcongr
          · exact Real.abs_cos_le_one _
          · exact Real.abs_cos_le_one _
      _ ≤ (n + 1) * |Real.sin y| := by linarith

theorem sin_mul_lt {n : ℕ} (hn : 2 ≤ n) {y : ℝ} (hy : Real.sin y ≠ 0) : |Real.sin (n * y)| < n * |Real.sin y| := by
  induction n, hn using Nat.le_induction with
  | base =>
    push_cast
    rw [Real.sin_two_mul, abs_mul, abs_mul, abs_two]
    have hc : |Real.cos y| < 1 := by
      rw [← sq_lt_one_iff_abs_lt_one]
      have := Real.sin_sq_add_cos_sq y
      have : 0 < Real.sin y ^ 2 := by positivity
      linarith
    have : 0 < |Real.sin y| := abs_pos.2 hy
    nlinarith
  | succ n _ ih =>
    push_cast
    rw [add_mul, one_mul, Real.sin_add]
    calc |Real.sin (n * y) * Real.cos y + Real.cos (n * y) * Real.sin y|
        ≤ |Real.sin (n * y)| * |Real.cos y| + |Real.cos (n * y)| * |Real.sin y| := by
          rw [← abs_mul, ← abs_mul]; exact abs_add_le _ _
      _ ≤ |Real.sin (n * y)| * 1 + 1 * |Real.sin y| := by
          gcongr
          · exact Real.abs_cos_le_one _
          · exact Real.abs_cos_le_one _
      _ < (n + 1) * |Real.sin y| := by linarith

theorem rowGain_range {n : ℕ} (hn : 0 < n) (x : ℝ) : 0 ≤ rowGain n x ∧ rowGain n x ≤ 1 := by
  unfold rowGain
  split_ifs with h
  · norm_num
  · refine ⟨sq_nonneg _, ?_⟩
    have hp : 0 < (n : ℝ) * |Real.sin (Real.pi * x)| := mul_pos (by exact_mod_cast hn) (abs_pos.2 h)
    rw [← sq_abs, abs_div, abs_mul, Nat.abs_cast]
    refine pow_le_one₀ (by positivity) ((div_le_one hp).2 (sin_mul_le _ _))

/-- Two or more sources have full gain for whole turns only. -/
theorem rowGain_full {n : ℕ} (hn : 2 ≤ n) (x : ℝ) : rowGain n x = 1 ↔ ∃ k : ℤ, x = k := by
  have hs : Real.sin (Real.pi * x) = 0 ↔ ∃ k : ℤ, x = k := by
    rw [Real.sin_eq_zero_iff]
    constructor
    · rintro ⟨k, hk⟩
      exact ⟨k, mul_left_cancel₀ Real.pi_ne_zero (by rw [← hk, mul_comm])⟩
    · rintro ⟨k, rfl⟩
      exact ⟨k, mul_comm _ _⟩
  rw [← hs]
  unfold rowGain
  split_ifs with h
  · simp [h]
  · simp only [h, iff_false]
    have hp : 0 < (n : ℝ) * |Real.sin (Real.pi * x)| := mul_pos (by exact_mod_cast (by omega : 0 < n)) (abs_pos.2 h)
    rw [← sq_abs, abs_div, abs_mul, Nat.abs_cast]
    exact (pow_lt_one₀ (by positivity) ((div_lt_one hp).2 (sin_mul_lt hn h)) (by norm_num)).ne

theorem rowGain_neg (n : ℕ) (x : ℝ) : rowGain n (-x) = rowGain n x := by
  simp only [rowGain, mul_neg, Real.sin_neg, neg_eq_zero, neg_div_neg_eq]

/-! ### The array -/

variable {a : ArrayArgs} {arr : PanelArray}

theorem wave_relative (fc : ℝ) (arr : PanelArray) (o d' d : Fin 3 → ℝ) (u : ℕ) :
    (starRingEnd ℂ) (wave fc arr o d' u) * wave fc arr o d u = cycles ((((attitude o)ᵀ *ᵥ (d - d')) ⬝ᵥ arr.antPos u) / (299792458 / fc)) := by
  unfold wave
  rw [cycles_conj, ← sub_div, ← sub_dotProduct, dotProduct_mulVec, mulVec_transpose]

/-- Beam pattern of a panel array of a single polarisation: the product of the gains of a row and a column of elements and of a row and a column of panels.
`x` are the components of the difference of the directions in the coordinates of the array. -/
theorem beam_pattern (h : mkArray a = .ok arr) (hs : a.polarization = "single") (hf : 0 < a.carrierFrequency) (hr : 0 < a.numRowsPerPanel)
    (hc : 0 < a.numColsPerPanel) (o d' d : Fin 3 → ℝ) :
    let x := (attitude o)ᵀ *ᵥ (d - d')
    let dh := spacingOr a.elementHorizontal
    let dv := spacingOr a.elementVertical
    beamGain a.carrierFrequency arr o d' d =
      rowGain a.numColsPerPanel (dh * x 1) * rowGain a.numRowsPerPanel (dv * x 2) *
        (rowGain a.numCols (panelPitch a.panelHorizontal a.numColsPerPanel dh * x 1) * rowGain a.numRows (panelPitch a.panelVertical a.numRowsPerPanel dv * x 2)) := by
  intro x dh dv
  obtain ⟨h1, -, -, hpan, hn, hp, -, -⟩ := mkArray_ok h
  obtain ⟨p1, p2, p3, p4⟩ := pitches a
  have hpp : a.p = 1 := by rw [ArrayArgs.p, if_pos hs]
  have hC : 0 < a.numCols := Nat.pos_of_ne_zero fun e => by simp [ArrayArgs.numPanels, e] at hpan
  have hR : 0 < a.numRows := Nat.pos_of_ne_zero fun e => by simp [ArrayArgs.numPanels, e] at hpan
  have hl : (299792458 : ℝ) / a.carrierFrequency ≠ 0 := by positivity
  have hsum : ∑ u ∈ Finset.range arr.numAnt, (starRingEnd ℂ) (wave a.carrierFrequency arr o d' u) * wave a.carrierFrequency arr o d u =
      cycles (x 1 * (-(((a.numColsPerPanel : ℝ) - 1) * a.elementH / 2) - ((a.numCols : ℝ) - 1) * a.panelH / 2) +
        x 2 * (((a.numRowsPerPanel : ℝ) - 1) * a.elementV / 2 + ((a.numRows : ℝ) - 1) * a.panelV / 2)) *
      ((∑ k ∈ Finset.range a.numCols, cycles (k * (a.panelH * x 1))) * ((∑ k ∈ Finset.range a.numRows, cycles (k * -(a.panelV * x 2))) *
        ((∑ k ∈ Finset.range a.numColsPerPanel, cycles (k * (a.elementH * x 1))) * ∑ k ∈ Finset.range a.numRowsPerPanel, cycles (k * -(a.elementV * x 2))))) := by
    simp only [wave_relative]
    rw [hn, hp, sum_elements, hpp]
    simp only [Finset.range_one, Finset.sum_singleton]
    rw [Finset.sum_mul, Finset.mul_sum]
    refine Finset.sum_congr rfl fun pj hpj => ?_
    rw [Finset.sum_mul, Finset.mul_sum, Finset.mul_sum]
    refine Finset.sum_congr rfl fun pi hpi => ?_
    rw [Finset.sum_mul, Finset.mul_sum, Finset.mul_sum, Finset.mul_sum]
    refine Finset.sum_congr rfl fun j hj => ?_
    rw [Finset.mul_sum, Finset.mul_sum, Finset.mul_sum, Finset.mul_sum]
    refine Finset.sum_congr rfl fun i hi => ?_
    rw [Finset.mem_range] at hpj hpi hj hi
    have e := positions_eq h1 hpj hpi (show 0 < a.p by omega) hj hi
    rw [hpp] at e
    rw [e, ← cycles_add, ← cycles_add, ← cycles_add, ← cycles_add, dotProduct_smul, smul_eq_mul, speedOfLight, mul_div_cancel_left₀ _ hl]
    congr 1
    simp only [dotProduct, Fin.sum_univ_three, Matrix.cons_val]
    ring
  unfold beamGain
  rw [hsum, norm_mul, cycles_norm, one_mul, norm_mul, norm_mul, norm_mul, mul_pow, mul_pow, mul_pow, row_sum hC, row_sum hR, row_sum hr, row_sum hc, hn, rowGain_neg,
    rowGain_neg, p3, p4, p1, p2]
  have e : (a.numAnt : ℝ) = a.numCols * a.numRows * (a.numColsPerPanel * a.numRowsPerPanel) := by
    simp [ArrayArgs.numAnt, ArrayArgs.numPanels, ArrayArgs.numPanelAnt, hpp]
  rw [e]
  have q1 : (a.numCols : ℝ) ≠ 0 := by positivity
  have q2 : (a.numRows : ℝ) ≠ 0 := by positivity
  have q3 : (a.numColsPerPanel : ℝ) ≠ 0 := by positivity
  have q4 : (a.numRowsPerPanel : ℝ) ≠ 0 := by positivity
  simp only [dh, dv]
  field_simp

theorem beamGain_range (fc : ℝ) (arr : PanelArray) (hn : 0 < arr.numAnt) (o d' d : Fin 3 → ℝ) :
    0 ≤ beamGain fc arr o d' d ∧ beamGain fc arr o d' d ≤ 1 ∧ beamGain fc arr o d d = 1 := by
  have hn' : (0 : ℝ) < arr.numAnt := by exact_mod_cast hn
  unfold beamGain
  refine ⟨by positivity, ?_, ?_⟩
  · rw [div_le_one (by positivity)]
    gcongr
    refine (norm_sum_le _ _).trans (le_of_eq ?_)
    simp [wave_relative, cycles_norm]
  · simp only [wave_relative, sub_self, Matrix.mulVec_zero, zero_dotProduct, zero_div]
    simp [cycles, hn'.ne']

/-- A plane wave between arrays of a single polarisation: a common factor times the phases at both ends. -/
theorem wave_product (g : CoeffGen) (l : LinkTopo) {M : ℕ} (r : LinkRays M) (phi : Fin M → Fin raysPerCluster → Fin 4 → ℝ) (c : Fin M) (m : Fin raysPerCluster)
    {h : Coeff} {arrival departure : Fin 3 → ℝ}
    (hh : h = losCoeff g l ∧ arrival = sphereDirection l.losZoa l.losAoa ∧ departure = sphereDirection l.losZod l.losAod ∨
      h = nlosRay g l r phi c m ∧ arrival = sphereDirection (r.zoa c m) (r.aoa c m) ∧ departure = sphereDirection (r.zod c m) (r.aod c m))
    (hr : g.rx.polarization = "single") (ht : g.tx.polarization = "single") (t : ℝ) :
    ∃ A : ℂ, ∀ u s, h u s t = A * (wave g.fc g.rx l.rxOri arrival u * wave g.fc g.tx l.txOri departure s) := by
  have key : ∀ aoa aod zoa zod P (b : ℂ), ∃ A : ℂ, ∀ u s, fieldMatrix g l aoa aod zoa zod P u s * arrayOffset g l aoa aod zoa zod u s * b =
      A * (wave g.fc g.rx l.rxOri (sphereDirection zoa aoa) u * wave g.fc g.tx l.txOri (sphereDirection zod aod) s) := by
    intro aoa aod zoa zod P b
    refine ⟨fieldMatrix g l aoa aod zoa zod P 0 0 * b, fun u s => ?_⟩
    rw [arrayOffset_cycles]
    simp only [fieldMatrix, fieldVector_single hr l.rxOri zoa aoa u 0, fieldVector_single ht l.txOri zod aod s 0, wave]
    ring
  rcases hh with ⟨rfl, rfl, rfl⟩ | ⟨rfl, rfl, rfl⟩
  · obtain ⟨A, hA⟩ := key l.losAoa l.losAod l.losZoa l.losZod (withFaraday g l losPhaseMatrix)
      (dopplerTerm g l l.losAoa l.losZoa l.losAod l.losZod t * Complex.exp (Complex.I * (2 * Real.pi * l.distance3d / g.lambda0 : ℝ)))
    exact ⟨A, fun u s => (mul_assoc _ _ _).trans (hA u s)⟩
  · obtain ⟨A, hA⟩ := key (r.aoa c m) (r.aod c m) (r.zoa c m) (r.zod c m) (withFaraday g l (phaseMatrix (phi c m) (r.xpr c m)))
      (dopplerTerm g l (r.aoa c m) (r.zoa c m) (r.aod c m) (r.zod c m) t * ((Real.sqrt (r.powers c / raysPerCluster) : ℝ) : ℂ))
    exact ⟨A, fun u s => (mul_assoc _ _ _).trans (hA u s)⟩

theorem unit_sum_le {n : ℕ} (w z : Fin n → ℂ) (hz : ∀ k, ‖z k‖ = 1) : ‖∑ k, w k * z k‖ ^ 2 ≤ n * ∑ k, ‖w k‖ ^ 2 := by
  have h1 : ‖∑ k, w k * z k‖ ≤ ∑ k, ‖w k‖ * 1 := (norm_sum_le _ _).trans (le_of_eq (Finset.sum_congr rfl fun k _ => by rw [norm_mul, hz]))
  refine (pow_le_pow_left₀ (norm_nonneg _) h1 2).trans ((Finset.sum_mul_sq_le_sq_mul_sq _ _ _).trans (le_of_eq ?_))
  simp [mul_comm]

theorem beamed_product {h : Coeff} {t : ℝ} {A : ℂ} {x y : ℕ → ℂ} (hw : ∀ u s, h u s t = A * (x u * y s)) (R T : ℕ) (w : Fin R → ℂ) (v : Fin T → ℂ) :
    beamed h R T t w v = A * ((∑ u, (starRingEnd ℂ) (w u) * x u) * ∑ s, v s * y s) := by
  unfold beamed
  rw [Finset.sum_mul_sum, Finset.mul_sum]
  refine Finset.sum_congr rfl fun u _ => ?_
  rw [Finset.mul_sum]
  refine Finset.sum_congr rfl fun s _ => ?_
  rw [hw]
  ring

/-- C209, gain. No weights raise the power of the specular path or of a ray between arrays of a single polarisation by more than the product of the numbers
of antennas. Weights matched to directions `a` (receiver) and `d` (transmitter) raise it by this product times the beam gains towards the directions of
arrival and departure, which are one if the directions agree. -/
theorem C209_gain (g : CoeffGen) (l : LinkTopo) {M : ℕ} (r : LinkRays M) (phi : Fin M → Fin raysPerCluster → Fin 4 → ℝ) (c : Fin M) (m : Fin raysPerCluster)
    {h : Coeff} {arrival departure : Fin 3 → ℝ}
    (hh : h = losCoeff g l ∧ arrival = sphereDirection l.losZoa l.losAoa ∧ departure = sphereDirection l.losZod l.losAod ∨
      h = nlosRay g l r phi c m ∧ arrival = sphereDirection (r.zoa c m) (r.aoa c m) ∧ departure = sphereDirection (r.zod c m) (r.aod c m))
    (hr : g.rx.polarization = "single") (ht : g.tx.polarization = "single") (hR : 0 < g.rx.numAnt) (hT : 0 < g.tx.numAnt) (t : ℝ) :
    (∀ R T (w : Fin R → ℂ) (v : Fin T → ℂ), ∑ u, ‖w u‖ ^ 2 = 1 → ∑ s, ‖v s‖ ^ 2 = 1 → ‖beamed h R T t w v‖ ^ 2 ≤ R * T * ‖h 0 0 t‖ ^ 2) ∧
    (∀ a d : Fin 3 → ℝ,
      let w : Fin g.rx.numAnt → ℂ := fun u => wave g.fc g.rx l.rxOri a u / (Real.sqrt g.rx.numAnt : ℝ)
      let v : Fin g.tx.numAnt → ℂ := fun s => (starRingEnd ℂ) (wave g.fc g.tx l.txOri d s) / (Real.sqrt g.tx.numAnt : ℝ)
      ∑ u, ‖w u‖ ^ 2 = 1 ∧ ∑ s, ‖v s‖ ^ 2 = 1 ∧
      ‖beamed h g.rx.numAnt g.tx.numAnt t w v‖ ^ 2 =
        g.rx.numAnt * g.tx.numAnt * (beamGain g.fc g.rx l.rxOri a arrival * beamGain g.fc g.tx l.txOri d departure) * ‖h 0 0 t‖ ^ 2) ∧
    beamGain g.fc g.rx l.rxOri arrival arrival = 1 ∧ beamGain g.fc g.tx l.txOri departure departure = 1 := by
  obtain ⟨A, hA⟩ := wave_product g l r phi c m hh hr ht t
  have hw1 : ∀ arr o d u, ‖wave g.fc arr o d u‖ = 1 := fun arr o d u => cycles_norm _
  have hA0 : ‖h 0 0 t‖ = ‖A‖ := by rw [hA, norm_mul, norm_mul, hw1, hw1, mul_one, mul_one]
  have hR' : (0 : ℝ) < g.rx.numAnt := by exact_mod_cast hR
  have hT' : (0 : ℝ) < g.tx.numAnt := by exact_mod_cast hT
  refine ⟨fun R T w v h1 h2 => ?_, fun a d => ?_, (beamGain_range _ _ hR _ 0 _).2.2, (beamGain_range _ _ hT _ 0 _).2.2⟩
  · rw [beamed_product hA, norm_mul, norm_mul, mul_pow, mul_pow, hA0]
    have b1 := unit_sum_le (fun u : Fin R => (starRingEnd ℂ) (w u)) (fun u => wave g.fc g.rx l.rxOri arrival u) fun _ => hw1 _ _ _ _
    have b2 := unit_sum_le v (fun s : Fin T => wave g.fc g.tx l.txOri departure s) fun _ => hw1 _ _ _ _
    simp only [RCLike.norm_conj, h1, h2, mul_one] at b1 b2
    calc ‖A‖ ^ 2 * (‖∑ u : Fin R, (starRingEnd ℂ) (w u) * wave g.fc g.rx l.rxOri arrival u‖ ^ 2 * ‖∑ s : Fin T, v s * wave g.fc g.tx l.txOri departure s‖ ^ 2)
        ≤ ‖A‖ ^ 2 * (R * T) := by gcongr
      _ = R * T * ‖A‖ ^ 2 := mul_comm _ _
  · intro w v
    have n1 : ∀ n : ℕ, (0 : ℝ) < n → ‖((Real.sqrt n : ℝ) : ℂ)‖ ^ 2 = n := fun n hn => by
      rw [Complex.norm_real, Real.norm_of_nonneg (Real.sqrt_nonneg _), Real.sq_sqrt hn.le]
    refine ⟨?_, ?_, ?_⟩
    · simp [w, hw1, div_pow, Real.sq_sqrt hR'.le, hR'.ne', hR.ne']
    · simp [v, hw1, div_pow, Real.sq_sqrt hT'.le, hT'.ne', hT.ne']
    · rw [beamed_product hA, norm_mul, norm_mul, mul_pow, mul_pow, hA0]
      have e1 : ∑ u : Fin g.rx.numAnt, (starRingEnd ℂ) (w u) * wave g.fc g.rx l.rxOri arrival u =
          (∑ u ∈ Finset.range g.rx.numAnt, (starRingEnd ℂ) (wave g.fc g.rx l.rxOri a u) * wave g.fc g.rx l.rxOri arrival u) / (Real.sqrt g.rx.numAnt : ℝ) := by
        rw [Finset.sum_div, ← Fin.sum_univ_eq_sum_range
          (fun u => (starRingEnd ℂ) (wave g.fc g.rx l.rxOri a u) * wave g.fc g.rx l.rxOri arrival u / ((Real.sqrt g.rx.numAnt : ℝ) : ℂ))]
        refine Finset.sum_congr rfl fun u _ => ?_
        simp only [w, map_div₀, Complex.conj_ofReal]
        ring
      have e2 : ∑ s : Fin g.tx.numAnt, v s * wave g.fc g.tx l.txOri departure s =
          (∑ s ∈ Finset.range g.tx.numAnt, (starRingEnd ℂ) (wave g.fc g.tx l.txOri d s) * wave g.fc g.tx l.txOri departure s) / (Real.sqrt g.tx.numAnt : ℝ) := by
        rw [Finset.sum_div, ← Fin.sum_univ_eq_sum_range
          (fun s => (starRingEnd ℂ) (wave g.fc g.tx l.txOri d s) * wave g.fc g.tx l.txOri departure s / ((Real.sqrt g.tx.numAnt : ℝ) : ℂ))]
        refine Finset.sum_congr rfl fun s _ => ?_
        simp only [v]
        ring
      rw [e1, e2, norm_div, norm_div, div_pow, div_pow, n1 _ hR', n1 _ hT']
      unfold beamGain
      field_simp

/-- The hypotheses can be met: a four by four panel at both ends. -/
example : ∃ (g : CoeffGen) (a : ArrayArgs), mkArray a = .ok g.rx ∧ mkArray a = .ok g.tx ∧ g.rx.polarization = "single" ∧ g.tx.polarization = "single" ∧
    0 < a.carrierFrequency ∧ 0 < a.numRowsPerPanel ∧ 0 < a.numColsPerPanel ∧ g.rx.numAnt = 16 ∧ g.tx.numAnt = 16 := by
  obtain ⟨rx, hrx⟩ : ∃ a, mkArray ⟨4, 4, "single", "V", "omni", 2e9, 1, 1, none, none, none, none⟩ = .ok a := by
    norm_num [mkArray, patternOf, ArrayArgs.panelH, ArrayArgs.panelV, ArrayArgs.elementH, ArrayArgs.elementV, ArrayArgs.numPanels, Except.map]
  obtain ⟨-, -, -, -, e1, -⟩ := mkArray_ok hrx
  have e2 : rx.polarization = "single" := ((C111_constructor _).2 rx hrx).1
  exact ⟨⟨2e9, rx, rx⟩, _, hrx, hrx, e2, e2, by norm_num, by norm_num, by norm_num, e1.trans (by decide), e1.trans (by decide)⟩

/-- C209, pattern. The beam gain of a panel array of a single polarisation is the product of the gains of a row and a column of elements and of a row and a
column of panels. -/
theorem C209_pattern (h : mkArray a = .ok arr) (hs : a.polarization = "single") (hf : 0 < a.carrierFrequency) (hr : 0 < a.numRowsPerPanel)
    (hc : 0 < a.numColsPerPanel) (o d' d : Fin 3 → ℝ) :
    let y := (d - d') ⬝ᵥ attitude o *ᵥ ![0, 1, 0]
    let z := (d - d') ⬝ᵥ attitude o *ᵥ ![0, 0, 1]
    let dh := spacingOr a.elementHorizontal
    let dv := spacingOr a.elementVertical
    beamGain a.carrierFrequency arr o d' d =
      rowGain a.numColsPerPanel (dh * y) * rowGain a.numRowsPerPanel (dv * z) *
        (rowGain a.numCols (panelPitch a.panelHorizontal a.numColsPerPanel dh * y) * rowGain a.numRows (panelPitch a.panelVertical a.numRowsPerPanel dv * z)) := by
  intro y z dh dv
  have hy : y = ((attitude o)ᵀ *ᵥ (d - d')) 1 := by simp [y, dotProduct, Matrix.mulVec, Fin.sum_univ_three]; ring
  have hz : z = ((attitude o)ᵀ *ᵥ (d - d')) 2 := by simp [z, dotProduct, Matrix.mulVec, Fin.sum_univ_three]; ring
  rw [hy, hz]
  exact beam_pattern h hs hf hr hc o d' d

theorem attitude_orthogonal (o : Fin 3 → ℝ) : attitude o * (attitude o)ᵀ = 1 ∧ (attitude o)ᵀ * attitude o = 1 := by
  have h : forwardRot o = attitude o := by
    ext i j
    have := congrFun (C115_orientation o (Pi.single j 1)).1 i
    simpa [rotPos] using this
  have := (C42_rotation o).1
  rw [h, Matrix.mem_specialOrthogonalGroup_iff, Matrix.mem_orthogonalGroup_iff] at this
  have h1 : attitude o * (attitude o)ᵀ = 1 := by simpa [Matrix.star_eq_conjTranspose] using this.1
  exact ⟨h1, mul_eq_one_comm.1 h1⟩

/-- C209, lobes. With two or more rows and columns at most half a wavelength apart, a beam has its full gain towards its direction and the mirror image at the
plane of the panel only, unless its direction is along the rows or the columns. -/
theorem C209_lobes (h : mkArray a = .ok arr) (hs : a.polarization = "single") (hf : 0 < a.carrierFrequency) (hr : 2 ≤ a.numRowsPerPanel)
    (hc : 2 ≤ a.numColsPerPanel) (hh0 : 0 < spacingOr a.elementHorizontal) (hh : spacingOr a.elementHorizontal ≤ 1 / 2)
    (hv0 : 0 < spacingOr a.elementVertical) (hv : spacingOr a.elementVertical ≤ 1 / 2) (o d' d : Fin 3 → ℝ) (hd : d ⬝ᵥ d = 1) (hd' : d' ⬝ᵥ d' = 1)
    (hrow : |d' ⬝ᵥ attitude o *ᵥ ![0, 1, 0]| < 1) (hcol : |d' ⬝ᵥ attitude o *ᵥ ![0, 0, 1]| < 1) :
    let normal := attitude o *ᵥ ![1, 0, 0]
    beamGain a.carrierFrequency arr o d' d = 1 ↔ d = d' ∨ d = d' - (2 * (d' ⬝ᵥ normal)) • normal := by
  intro normal
  obtain ⟨h1, h2⟩ := attitude_orthogonal o
  have hb := beam_pattern h hs hf (by omega) (by omega) o d' d
  set p := (attitude o)ᵀ *ᵥ d with hp
  set p' := (attitude o)ᵀ *ᵥ d' with hp'
  have back : ∀ q : Fin 3 → ℝ, attitude o *ᵥ ((attitude o)ᵀ *ᵥ q) = q := fun q => by rw [Matrix.mulVec_mulVec, h1, Matrix.one_mulVec]
  have comp : ∀ (q e : Fin 3 → ℝ), q ⬝ᵥ attitude o *ᵥ e = ((attitude o)ᵀ *ᵥ q) ⬝ᵥ e := fun q e => by rw [dotProduct_mulVec, mulVec_transpose]
  have len : ∀ q : Fin 3 → ℝ, q ⬝ᵥ q = 1 → ((attitude o)ᵀ *ᵥ q) 0 ^ 2 + ((attitude o)ᵀ *ᵥ q) 1 ^ 2 + ((attitude o)ᵀ *ᵥ q) 2 ^ 2 = 1 := fun q hq => by
    have := comp q ((attitude o)ᵀ *ᵥ q)
    rw [back, hq] at this
    simp only [dotProduct, Fin.sum_univ_three] at this
    rw [this]
    ring
  have lp := len d hd
  have lp' := len d' hd'
  rw [← hp] at lp
  rw [← hp'] at lp'
  rw [comp, ← hp'] at hrow hcol
  simp only [dotProduct, Fin.sum_univ_three, Matrix.cons_val, mul_zero, mul_one, zero_add, add_zero] at hrow hcol
  have hsub : (attitude o)ᵀ *ᵥ (d - d') = p - p' := by rw [Matrix.mulVec_sub]
  rw [hsub] at hb
  simp only [Pi.sub_apply] at hb
  have plane : beamGain a.carrierFrequency arr o d' d = 1 ↔ p 1 = p' 1 ∧ p 2 = p' 2 := by
    obtain ⟨-, -, -, hpan, -, -, -, -⟩ := mkArray_ok h
    have hC : 0 < a.numCols := Nat.pos_of_ne_zero fun e => by simp [ArrayArgs.numPanels, e] at hpan
    have hR : 0 < a.numRows := Nat.pos_of_ne_zero fun e => by simp [ArrayArgs.numPanels, e] at hpan
    constructor
    · intro hone
      rw [hb] at hone
      obtain ⟨a1, b1⟩ := rowGain_range (show 0 < a.numColsPerPanel by omega) (spacingOr a.elementHorizontal * (p 1 - p' 1))
      obtain ⟨a2, b2⟩ := rowGain_range (show 0 < a.numRowsPerPanel by omega) (spacingOr a.elementVertical * (p 2 - p' 2))
      obtain ⟨a3, b3⟩ := rowGain_range hC (panelPitch a.panelHorizontal a.numColsPerPanel (spacingOr a.elementHorizontal) * (p 1 - p' 1))
      obtain ⟨a4, b4⟩ := rowGain_range hR (panelPitch a.panelVertical a.numRowsPerPanel (spacingOr a.elementVertical) * (p 2 - p' 2))
      have c1 := mul_le_one₀ b1 a2 b2
      have c2 := mul_le_one₀ b3 a4 b4
      have c3 := mul_le_of_le_one_right (mul_nonneg a1 a2) c2
      have e12 : rowGain a.numColsPerPanel (spacingOr a.elementHorizontal * (p 1 - p' 1)) *
        rowGain a.numRowsPerPanel (spacingOr a.elementVertical * (p 2 - p' 2)) = 1 := le_antisymm c1 (hone ▸ c3)
      have e1 := le_antisymm b1 (e12 ▸ mul_le_of_le_one_right a1 b2)
      have e2 := le_antisymm b2 (e12 ▸ mul_le_of_le_one_left a2 b1)
      have zero : ∀ s y y' : ℝ, 0 < s → s ≤ 1 / 2 → |y'| < 1 → y ^ 2 ≤ 1 → (∃ k : ℤ, s * (y - y') = k) → y = y' := by
        rintro s y y' s0 s1 hy' hy ⟨k, hk⟩
        have hy1 : |y| ≤ 1 := abs_le_one_iff_mul_self_le_one.2 (by nlinarith)
        have hlt : |s * (y - y')| < 1 := by
          rw [abs_mul, abs_of_pos s0]
          have : |y - y'| < 2 := (abs_sub _ _).trans_lt (by linarith)
          nlinarith [abs_nonneg (y - y')]
        rw [hk] at hlt
        have hk0 : k = 0 := by
          have : |k| < 1 := by exact_mod_cast hlt
          exact Int.abs_lt_one_iff.1 this
        rw [hk0, Int.cast_zero, mul_eq_zero] at hk
        rcases hk with hk | hk <;> linarith
      exact ⟨zero _ _ _ hh0 hh hrow (by nlinarith [sq_nonneg (p 0), sq_nonneg (p 2)]) ((rowGain_full hc _).1 e1),
        zero _ _ _ hv0 hv hcol (by nlinarith [sq_nonneg (p 0), sq_nonneg (p 1)]) ((rowGain_full hr _).1 e2)⟩
    · rintro ⟨e1, e2⟩
      rw [hb, e1, e2]
      simp [rowGain]
  rw [plane]
  have hn : attitude o *ᵥ ![1, 0, 0] = normal := rfl
  have hdn : d' ⬝ᵥ normal = p' 0 := by
    rw [← hn, comp]
    simp [dotProduct, Fin.sum_univ_three, hp']
  constructor
  · rintro ⟨e1, e2⟩
    have : p 0 ^ 2 = p' 0 ^ 2 := by rw [e1, e2] at lp; linarith
    rcases sq_eq_sq_iff_eq_or_eq_neg.1 this with e0 | e0
    · left
      rw [← back d, ← back d', ← hp, ← hp']
      congr 1
      funext k
      fin_cases k <;> assumption
    · right
      rw [hdn, ← hn, ← Matrix.mulVec_smul]
      conv_lhs => rw [← back d, ← hp]
      conv_rhs => rw [← back d', ← hp', ← Matrix.mulVec_sub]
      congr 1
      funext k
      fin_cases k
      · simp [e0]; ring
      · simpa using e1
      · simpa using e2
  · rintro (rfl | e)
    · exact ⟨rfl, rfl⟩
    · have e' : p = p' - (2 * p' 0) • ![1, 0, 0] := by
        rw [hp, e, hdn, Matrix.mulVec_sub, Matrix.mulVec_smul, ← hn, Matrix.mulVec_mulVec, h2, Matrix.one_mulVec]
      rw [e']
      simp

/-- The hypotheses can be met: the default spacings, four rows and four columns, a beam in a slanted direction. -/
example : ∃ (a : ArrayArgs) (arr : PanelArray) (o d' : Fin 3 → ℝ), mkArray a = .ok arr ∧ a.polarization = "single" ∧ 0 < a.carrierFrequency ∧ 2 ≤ a.numRowsPerPanel ∧
    2 ≤ a.numColsPerPanel ∧ spacingOr a.elementHorizontal = 1 / 2 ∧ spacingOr a.elementVertical = 1 / 2 ∧ d' ⬝ᵥ d' = 1 ∧ d' 1 ≠ 0 ∧
    |d' ⬝ᵥ attitude o *ᵥ ![0, 1, 0]| < 1 ∧ |d' ⬝ᵥ attitude o *ᵥ ![0, 0, 1]| < 1 := by
  obtain ⟨arr, h⟩ : ∃ arr, mkArray ⟨4, 4, "single", "V", "omni", 2e9, 1, 1, none, none, none, none⟩ = .ok arr := by
    norm_num [mkArray, patternOf, ArrayArgs.panelH, ArrayArgs.panelV, ArrayArgs.elementH, ArrayArgs.elementV, ArrayArgs.numPanels, Except.map]
  refine ⟨_, arr, 0, ![4 / 5, 3 / 5, 0], h, rfl, by norm_num, by norm_num, by norm_num, rfl, rfl, ?_, ?_, ?_, ?_⟩
  · simp only [dotProduct, Fin.sum_univ_three, Matrix.cons_val]; norm_num
  · norm_num
  all_goals
    rw [← (C115_orientation _ _).1]
    simp only [rotPos, forwardRot, dotProduct, Matrix.mulVec, Fin.sum_univ_three, Matrix.cons_val, Matrix.of_apply, Pi.zero_apply, Real.sin_zero, Real.cos_zero]
    norm_num

/-- Half a wavelength is needed: columns one wavelength apart have full gain also at right angles to the direction of the beam. -/
theorem C209_grating {fc : ℝ} (hf : 0 < fc) (h : mkArray ⟨4, 4, "single", "V", "omni", fc, 1, 1, none, none, none, some 1⟩ = .ok arr) :
    beamGain fc arr 0 ![1, 0, 0] ![0, 1, 0] = 1 := by
  have hb := C209_pattern h rfl hf (by norm_num) (by norm_num) 0 ![1, 0, 0] ![0, 1, 0]
  simp only [← (C115_orientation _ _).1] at hb
  simp only [rotPos, forwardRot, dotProduct, Matrix.mulVec, Fin.sum_univ_three] at hb
  rw [hb]
  have one : ∀ x : ℝ, (if Real.sin x = 0 then (1 : ℝ) else (Real.sin x / Real.sin x) ^ 2) = 1 := fun x => by
    split_ifs with h0
    · rfl
    · rw [div_self h0, one_pow]
  simp [rowGain, spacingOr, one]

end OpenNTN
