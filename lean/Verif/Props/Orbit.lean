import Verif.Props.Coeff2
import Mathlib.Analysis.InnerProductSpace.PiL2

/-
Doppler of the satellite against the geometry of circular orbits.
-/
namespace OpenNTN

open Classical

/-- Range rates that occur on circular orbits: a UT at `U` on a sphere of radius `R`, a satellite at `S` at altitude `h`, seen at elevation `el`
(radian) above the horizon of the UT, moving with speed `v` perpendicularly to its position vector; `x` is the component of its velocity in the
direction of the UT. -/
def Spec.PossibleRangeRate (R h el v x : ℝ) : Prop :=
  ∃ U S V : EuclideanSpace ℝ (Fin 3), ‖U‖ = R ∧ ‖S‖ = R + h ∧ ‖V‖ = v ∧ inner ℝ S V = 0 ∧
    inner ℝ (S - U) U = ‖S - U‖ * R * Real.sin el ∧ x * ‖S - U‖ = inner ℝ (U - S) V

/-- The largest range rate, TR 38.811 6.9.2. -/
theorem rangeRate_le {R h el v x : ℝ} (hR : 0 < R) (hh : 0 < h) (hel : 0 ≤ Real.cos el) (H : Spec.PossibleRangeRate R h el v x) :
    |x| ≤ v * (R / (R + h)) * Real.cos el := by
  obtain ⟨U, S, V, hU, hS, hV, hSV, he, hx⟩ := H
  set d := ‖S - U‖ with hd
  have hv : 0 ≤ v := hV ▸ norm_nonneg V
  have hd0 : 0 < d := by
    have := norm_sub_norm_le S U
    linarith
  set c := inner ℝ U S with hc
  have hdd : d ^ 2 = (R + h) ^ 2 - 2 * c + R ^ 2 := by
    rw [hd, norm_sub_sq_real, hS, hU, real_inner_comm, hc]
  have hUU : inner ℝ U U = R ^ 2 := by rw [real_inner_self_eq_norm_sq, hU]
  have hSS : inner ℝ S S = (R + h) ^ 2 := by rw [real_inner_self_eq_norm_sq, hS]
  have he' : c - R ^ 2 = d * R * Real.sin el := by rw [← he, inner_sub_left, hUU, real_inner_comm, hc]
  have hx' : x * d = inner ℝ U V := by rw [hx, inner_sub_left, hSV, sub_zero]
  -- component of `U` perpendicular to `S`
  set P := (R + h) ^ 2 • U - c • S with hP
  have hPV : inner ℝ P V = (R + h) ^ 2 * (x * d) := by
    rw [hP, inner_sub_left, real_inner_smul_left, real_inner_smul_left, hSV, hx']; ring
  have hPP : ‖P‖ ^ 2 = ((R + h) * (R * d * Real.cos el)) ^ 2 := by
    rw [← real_inner_self_eq_norm_sq, hP]
    simp only [inner_sub_left, inner_sub_right, real_inner_smul_left, real_inner_smul_right, hUU, hSS, real_inner_comm U S]
    rw [← hc]
    have hcs := Real.sin_sq_add_cos_sq el
    have : (d * R * Real.cos el) ^ 2 = d ^ 2 * R ^ 2 - (c - R ^ 2) ^ 2 := by rw [he']; linear_combination d ^ 2 * R ^ 2 * hcs
    have e2 : ((R + h) * (R * d * Real.cos el)) ^ 2 = (R + h) ^ 2 * (d * R * Real.cos el) ^ 2 := by ring
    rw [e2, this, hdd]
    ring
  have hPn : ‖P‖ = (R + h) * (R * d * Real.cos el) := by
    rw [← abs_of_nonneg (norm_nonneg P), ← abs_of_nonneg (show 0 ≤ (R + h) * (R * d * Real.cos el) by positivity)]
    exact (sq_eq_sq_iff_abs_eq_abs _ _).1 hPP
  have hCS := abs_real_inner_le_norm P V
  rw [hPV, hPn, hV, abs_mul, abs_mul, abs_of_pos hd0, abs_of_pos (show 0 < (R + h) ^ 2 by positivity)] at hCS
  have hRh : 0 < R + h := by linarith
  have : (R + h) * (R * d * Real.cos el) * v = (R + h) ^ 2 * (v * (R / (R + h)) * Real.cos el * d) := by field_simp
  rw [this] at hCS
  have h2 := le_of_mul_le_mul_left hCS (by positivity)
  exact le_of_mul_le_mul_right h2 hd0

theorem norm3 {a b c y : ℝ} (hy : 0 ≤ y) (h : a ^ 2 + b ^ 2 + c ^ 2 = y ^ 2) : ‖(!₂[a, b, c] : EuclideanSpace ℝ (Fin 3))‖ = y := by
  rw [EuclideanSpace.norm_eq]
  simp only [Fin.sum_univ_three, Real.norm_eq_abs, sq_abs]
  simp only [PiLp.toLp_apply, Matrix.cons_val]
  rw [h, Real.sqrt_sq hy]

/-- Every range rate up to the largest occurs, depending on the direction of the orbit. -/
theorem rangeRate_possible {R h el v : ℝ} (hR : 0 < R) (hh : 0 < h) (hv : 0 ≤ v) (a : ℝ) :
    Spec.PossibleRangeRate R h el v (Real.cos a * (v * (R / (R + h)) * Real.cos el)) := by
  set C := Real.cos el
  set s := Real.sin el
  have hcs : s ^ 2 + C ^ 2 = 1 := Real.sin_sq_add_cos_sq el
  have hRh : 0 < R + h := by linarith
  have hrad : 0 ≤ (R + h) ^ 2 - R ^ 2 * C ^ 2 := by nlinarith [sq_nonneg s, sq_nonneg C, mul_pos hR hh, mul_nonneg (sq_nonneg R) (sq_nonneg s)]
  set d := Real.sqrt ((R + h) ^ 2 - R ^ 2 * C ^ 2) - R * s with hd
  have hsq : (d + R * s) ^ 2 = (R + h) ^ 2 - R ^ 2 * C ^ 2 := by rw [hd, sub_add_cancel, Real.sq_sqrt hrad]
  have hq : d ^ 2 + 2 * R * d * s + R ^ 2 = (R + h) ^ 2 := by linear_combination hsq - R ^ 2 * hcs
  have hd0 : 0 ≤ d := by
    rw [hd, sub_nonneg]
    refine Real.le_sqrt_of_sq_le ?_
    nlinarith [mul_pos hR hh]
  have hacs := Real.sin_sq_add_cos_sq a
  have hdiff : ‖(!₂[d * C, 0, R + d * s] - !₂[0, 0, R] : EuclideanSpace ℝ (Fin 3))‖ = d := by
    have : (!₂[d * C, 0, R + d * s] - !₂[0, 0, R] : EuclideanSpace ℝ (Fin 3)) = !₂[d * C, 0, d * s] := by
      ext i; fin_cases i <;> simp
    rw [this]
    exact norm3 hd0 (by linear_combination d ^ 2 * hcs)
  refine ⟨!₂[0, 0, R], !₂[d * C, 0, R + d * s],
    !₂[-(v * Real.cos a * (R + d * s) / (R + h)), v * Real.sin a, v * Real.cos a * (d * C) / (R + h)], ?_, ?_, ?_, ?_, ?_, ?_⟩
  · exact norm3 hR.le (by ring)
  · exact norm3 hRh.le (by linear_combination hq + d ^ 2 * hcs)
  · refine norm3 hv ?_
    field_simp
    linear_combination v ^ 2 * Real.cos a ^ 2 * hq + v ^ 2 * Real.cos a ^ 2 * d ^ 2 * hcs + v ^ 2 * (R + h) ^ 2 * hacs
  · simp [PiLp.inner_apply, Fin.sum_univ_three]; ring
  · rw [hdiff]
    simp [PiLp.inner_apply, Fin.sum_univ_three]; ring
  · rw [hdiff]
    simp [PiLp.inner_apply, Fin.sum_univ_three]; field_simp; ring

/-- The full claim of C101: for satellites, enabled Doppler adds to the phase the rotation that belongs to a range rate which can occur at the given
altitude and elevation with the speed of a circular orbit. -/
def C101_statement : Prop :=
  ∀ (g : CoeffGen) (l : LinkTopo) (el dir : ℝ), 0 < g.fc → 10 ≤ el → el ≤ 90 → 600000 ≤ l.bsHeight → l.doppler = true →
    l.satSpeed = topologySatSpeed l.bsHeight el dir →
    ∃ x, Spec.PossibleRangeRate 6371000 l.bsHeight (el / 180 * Real.pi) (satelliteSpeed l.bsHeight) x ∧
      ∀ aoa zoa aod zod t, dopplerExponent g l aoa zoa aod zod t =
        dopplerExponent g { l with doppler := false } aoa zoa aod zod t + 2 * Real.pi / (299792458 / g.fc) * x * t

/-- C101, what holds: the range rate that is used is exactly `(R+h)/R` times a possible one, so it is possible if it is at most `R/(R+h)` times the
maximum used by the code; possible range rates are bounded by the expression of TR 38.811. Missing: the factor `R/(R+h)`. -/
theorem C101_doppler_partial (g : CoeffGen) (l : LinkTopo) (el dir : ℝ) (h0 : 10 ≤ el) (h1 : el ≤ 90) (hh : 600000 ≤ l.bsHeight)
    (hd : l.doppler = true) (hs : l.satSpeed = topologySatSpeed l.bsHeight el dir) :
    (∃ x, Spec.PossibleRangeRate 6371000 l.bsHeight (el / 180 * Real.pi) (satelliteSpeed l.bsHeight) x ∧
      ∀ aoa zoa aod zod t, dopplerExponent g l aoa zoa aod zod t =
        dopplerExponent g { l with doppler := false } aoa zoa aod zod t +
          2 * Real.pi / (299792458 / g.fc) * ((6371000 + l.bsHeight) / 6371000 * x) * t) ∧
    ∀ x, Spec.PossibleRangeRate 6371000 l.bsHeight (el / 180 * Real.pi) (satelliteSpeed l.bsHeight) x →
      |x| ≤ satelliteSpeed l.bsHeight * (6371000 / (6371000 + l.bsHeight)) * Real.cos (el / 180 * Real.pi) := by
  have hpi := Real.pi_pos
  have hv : 0 ≤ satelliteSpeed l.bsHeight := Real.sqrt_nonneg _
  have hc : 0 ≤ Real.cos (el / 180 * Real.pi) := Real.cos_nonneg_of_mem_Icc ⟨by nlinarith, by nlinarith⟩
  refine ⟨⟨_, rangeRate_possible (by norm_num) (by linarith) hv dir, fun aoa zoa aod zod t => ?_⟩,
    fun x hx => rangeRate_le (by norm_num) (by linarith) hc hx⟩
  have hstill : ¬ (600000 ≤ l.bsHeight ∧ false = true) := by simp
  simp only [dopplerExponent, hd, hh, hs, topologySatSpeed, CoeffGen.lambda0, speedOfLight, and_self, if_true, hstill, if_false, Bool.false_eq_true,
    and_false]
  have hne : (6371000 : ℝ) + l.bsHeight ≠ 0 := by positivity
  rw [show el * (Real.pi / 180) = el / 180 * Real.pi by ring]
  field_simp

/-- A UT that does not move, under a satellite at 600 km. -/
noncomputable def exSatLink (el dir : ℝ) : LinkTopo where
  velocity := 0
  movingRx := true
  losAoa := 0
  losAod := 0
  losZoa := 1
  losZod := 2
  los := true
  distance3d := 2000000
  txOri := 0
  rxOri := 0
  bsHeight := 600000
  satSpeed := topologySatSpeed 600000 el dir
  doppler := true

example (dir : ℝ) : (10 : ℝ) ≤ 30 ∧ (30 : ℝ) ≤ 90 ∧ 600000 ≤ (exSatLink 30 dir).bsHeight ∧ (exSatLink 30 dir).doppler = true ∧
    (exSatLink 30 dir).satSpeed = topologySatSpeed (exSatLink 30 dir).bsHeight 30 dir :=
  ⟨by norm_num, by norm_num, le_refl _, rfl, rfl⟩

/-- C101 fails at 600 km and 60 degrees: with the orbit in the plane of the UT, the range rate is too large by nine percent. -/
theorem C101_violated : ¬ C101_statement := by
  intro H
  have hpi := Real.pi_pos
  obtain ⟨tx, -⟩ : ∃ p : PanelArray, True := ⟨⟨0, "", ⟨.omni, 0⟩, none, fun _ => 0, [], []⟩, trivial⟩
  obtain ⟨x, hx, hph⟩ := H ⟨2e9, tx, tx⟩ (exSatLink 60 0) 60 0 (by norm_num) (by norm_num) (by norm_num) (le_refl _) rfl rfl
  have hb : |x| ≤ _ := rangeRate_le (by norm_num) (by norm_num [exSatLink])
    (by rw [show (60 : ℝ) / 180 * Real.pi = Real.pi / 3 by ring, Real.cos_pi_div_three]; norm_num) hx
  have h := hph 0 0 0 0 1
  simp only [dopplerExponent, exSatLink, le_refl, and_self, if_true, topologySatSpeed, Real.cos_zero, one_mul, CoeffGen.lambda0, speedOfLight] at h
  rw [if_neg (by simp)] at h
  simp only [exSatLink] at hb
  rw [show (60 : ℝ) / 180 * Real.pi = Real.pi / 3 by ring, Real.cos_pi_div_three] at hb
  rw [show (60 : ℝ) * (Real.pi / 180) = Real.pi / 3 by ring, Real.cos_pi_div_three] at h
  have hv : 0 < satelliteSpeed 600000 := Real.sqrt_pos.2 (by positivity)
  have hk : 2 * Real.pi / (299792458 / 2e9) ≠ 0 := by positivity
  have hxe : x = 1 / 2 * satelliteSpeed 600000 := by
    have h' := add_left_cancel h
    rw [mul_one, mul_one] at h'
    exact (mul_left_cancel₀ hk h').symm
  rw [hxe, abs_of_pos (by positivity)] at hb
  norm_num at hb
  linarith

end OpenNTN
