import Verif.Spec.Symmetry
import Verif.Props.Symmetry
import Verif.Props.Geometry

/-
C124: the heading of the scene does not matter.
-/
namespace OpenNTN

open Classical Spec Matrix Real

variable {B N U : ℕ} [NeZero B] {cls : ScenarioClass} {sa : ScenarioArgs} {c : Config} {always : Bool} {ψ : Fin B → ℝ}

/-! ### Angles -/

/-- `x` and `y` in degree are the same direction. -/
def SameDeg (x y : ℝ) : Prop := ∃ k : ℤ, x = y + 360 * k

theorem SameDeg.refl (x : ℝ) : SameDeg x x := ⟨0, by simp⟩

theorem SameDeg.symm {x y : ℝ} (h : SameDeg x y) : SameDeg y x := by
  obtain ⟨k, rfl⟩ := h
  exact ⟨-k, by push_cast; ring⟩

theorem SameDeg.trans {x y z : ℝ} (h : SameDeg x y) (h' : SameDeg y z) : SameDeg x z := by
  obtain ⟨k, rfl⟩ := h
  obtain ⟨l, rfl⟩ := h'
  exact ⟨l + k, by push_cast; ring⟩

theorem SameDeg.add_right {x y : ℝ} (h : SameDeg x y) (d : ℝ) : SameDeg (x + d) (y + d) := by
  obtain ⟨k, rfl⟩ := h
  exact ⟨k, by ring⟩

theorem wrap_same (x : ℝ) : SameDeg (wrapAngle0_360 x) x := ⟨-⌊x / 360⌋, by simp only [wrapAngle0_360, fmod]; push_cast; ring⟩

theorem SameDeg.wrap {x y : ℝ} (h : SameDeg x y) : wrapAngle0_360 x = wrapAngle0_360 y := by
  obtain ⟨k, rfl⟩ := h
  simp only [wrapAngle0_360, fmod]
  have : (y + 360 * k) / 360 = y / 360 + k := by field_simp
  rw [this, Int.floor_add_intCast]
  push_cast
  ring

/-- Angles in radian that differ by `ψ` up to full turns. -/
def Turned (ψ x y : ℝ) : Prop := ∃ k : ℤ, y = x + ψ + 2 * π * k

theorem turned_of_deg {x y ψ : ℝ} (h : SameDeg y (x + rad2deg ψ)) : Turned ψ (deg2rad x) (deg2rad y) := by
  obtain ⟨k, rfl⟩ := h
  refine ⟨k, ?_⟩
  have := Real.pi_ne_zero
  simp only [deg2rad, rad2deg]
  field_simp
  ring

theorem Turned.cos {ψ x y : ℝ} (h : Turned ψ x y) : Real.cos y = Real.cos (x + ψ) := by
  obtain ⟨k, rfl⟩ := h
  rw [mul_comm (2 * π), Real.cos_add_int_mul_two_pi]

theorem Turned.sin {ψ x y : ℝ} (h : Turned ψ x y) : Real.sin y = Real.sin (x + ψ) := by
  obtain ⟨k, rfl⟩ := h
  rw [mul_comm (2 * π), Real.sin_add_int_mul_two_pi]

theorem atan2_turned {x y ψ : ℝ} (h : x ≠ 0 ∨ y ≠ 0) :
    SameDeg (rad2deg (atan2 (x * Real.sin ψ + y * Real.cos ψ) (x * Real.cos ψ - y * Real.sin ψ))) (rad2deg (atan2 y x) + rad2deg ψ) := by
  have hz : (⟨x, y⟩ : ℂ) ≠ 0 := by
    intro hh
    have h1 := congrArg Complex.re hh
    have h2 := congrArg Complex.im hh
    simp only [Complex.zero_re, Complex.zero_im] at h1 h2
    rcases h with h | h <;> contradiction
  have e : (⟨x * Real.cos ψ - y * Real.sin ψ, x * Real.sin ψ + y * Real.cos ψ⟩ : ℂ) =
      ⟨x, y⟩ * ((Real.Angle.cos (ψ : Real.Angle) : ℂ) + (Real.Angle.sin (ψ : Real.Angle) : ℂ) * Complex.I) := by
    rw [Real.Angle.cos_coe, Real.Angle.sin_coe]
    apply Complex.ext <;> simp [-Complex.ofReal_cos, -Complex.ofReal_sin]
  have hw : ((Real.Angle.cos (ψ : Real.Angle) : ℂ) + (Real.Angle.sin (ψ : Real.Angle) : ℂ) * Complex.I) ≠ 0 := by
    intro hh
    have h1 := congrArg Complex.re hh
    have h2 := congrArg Complex.im hh
    rw [Real.Angle.cos_coe, Real.Angle.sin_coe] at h1 h2
    simp [-Complex.ofReal_cos, -Complex.ofReal_sin] at h1 h2
    have := Real.sin_sq_add_cos_sq ψ
    rw [h1, h2] at this
    norm_num at this
  have e2 := Complex.arg_mul_coe_angle hz hw
  rw [← e, Complex.arg_cos_add_sin_mul_I_coe_angle, ← Real.Angle.coe_add, Real.Angle.angle_eq_iff_two_pi_dvd_sub] at e2
  obtain ⟨k, hk⟩ := e2
  refine ⟨k, ?_⟩
  simp only [atan2, rad2deg]
  have : (⟨x * Real.cos ψ - y * Real.sin ψ, x * Real.sin ψ + y * Real.cos ψ⟩ : ℂ).arg = (⟨x, y⟩ : ℂ).arg + ψ + 2 * π * k := by linarith
  rw [this]
  have := Real.pi_ne_zero
  field_simp
  ring

/-! ### Geometry -/

theorem distance2d_turned (p q : Vec3) (ψ : ℝ) : distance2d (turned ψ p) (turned ψ q) = distance2d p q := by
  simp only [distance2d, turned]
  congr 1
  have := Real.sin_sq_add_cos_sq ψ
  grind

theorem utDistance2d_turned {K : ℕ} (p : Fin K → Vec3) (ψ : ℝ) :
    utDistance2d (fun u => (turned ψ (p u)).x) (fun u => (turned ψ (p u)).y) = utDistance2d (fun u => (p u).x) (fun u => (p u).y) := by
  funext i j
  have := Real.sin_sq_add_cos_sq ψ
  simp only [utDistance2d, turned]
  congr 1
  grind

/-- UT and satellite are not on a vertical line. -/
def Beside (p q : Vec3) : Prop := p.x ≠ q.x ∨ p.y ≠ q.y

theorem losAngles_turned {p q : Vec3} (h : Beside p q) (ψ : ℝ) : losAngles (turned ψ p) (turned ψ q) = turnedAngles ψ (losAngles p q) := by
  have h' : p.x - q.x ≠ 0 ∨ p.y - q.y ≠ 0 := h.imp sub_ne_zero.2 sub_ne_zero.2
  have e1 : (turned ψ p).y - (turned ψ q).y = (p.x - q.x) * Real.sin ψ + (p.y - q.y) * Real.cos ψ := by simp only [turned]; ring
  have e2 : (turned ψ p).x - (turned ψ q).x = (p.x - q.x) * Real.cos ψ - (p.y - q.y) * Real.sin ψ := by simp only [turned]; ring
  have hs := atan2_turned (ψ := ψ) h'
  have hd := distance2d_turned p q ψ
  simp only [losAngles, turnedAngles, hd, e1, e2, LosAngles.mk.injEq]
  refine ⟨?_, ?_, rfl, rfl⟩
  · exact (hs.trans ((wrap_same _).symm.add_right _)).wrap
  · refine SameDeg.wrap ?_
    have h1 : ∀ x, rad2deg (x + π) = rad2deg x + rad2deg π := fun x => by simp only [rad2deg]; ring
    rw [h1]
    refine SameDeg.trans ?_ ((wrap_same _).symm.add_right _)
    rw [h1]
    have := hs.add_right (rad2deg π)
    refine this.trans ?_
    rw [add_right_comm]
    exact .refl _

/-! ### Rotations -/

theorem unitSphere_turned {ψ a a' : ℝ} (h : Turned ψ a a') (theta : ℝ) : unitSphere theta a' =
    ![unitSphere theta a 0 * Real.cos ψ - unitSphere theta a 1 * Real.sin ψ,
      unitSphere theta a 0 * Real.sin ψ + unitSphere theta a 1 * Real.cos ψ, unitSphere theta a 2] := by
  simp only [unitSphere, h.cos, h.sin, Real.cos_add, Real.sin_add]
  funext k
  fin_cases k <;> simp <;> ring

theorem coords_turnedOri (ψ : ℝ) (o : Vec3) : (turnedOri ψ o).coords = ![o.coords 0 + ψ, o.coords 1, o.coords 2] := rfl

/-- Turning the bearing turns the columns of the rotation matrix. -/
theorem forwardRot_turned (ψ : ℝ) (o : Vec3) (j : Fin 3) :
    forwardRot (turnedOri ψ o).coords 0 j = forwardRot o.coords 0 j * Real.cos ψ - forwardRot o.coords 1 j * Real.sin ψ ∧
    forwardRot (turnedOri ψ o).coords 1 j = forwardRot o.coords 0 j * Real.sin ψ + forwardRot o.coords 1 j * Real.cos ψ ∧
    forwardRot (turnedOri ψ o).coords 2 j = forwardRot o.coords 2 j := by
  fin_cases j <;> simp [forwardRot, turnedOri, Vec3.coords, Real.cos_add, Real.sin_add] <;> constructor <;> ring

theorem lcs_turned {ψ a a' : ℝ} (h : Turned ψ a a') (o : Vec3) (theta : ℝ) :
    reverseRot (turnedOri ψ o).coords *ᵥ unitSphere theta a' = reverseRot o.coords *ᵥ unitSphere theta a := by
  funext j
  obtain ⟨h0, h1, h2⟩ := forwardRot_turned ψ o j
  rw [unitSphere_turned h]
  simp only [reverseRot, mulVec, dotProduct, Fin.sum_univ_three, transpose_apply, h0, h1, h2]
  have := Real.sin_sq_add_cos_sq ψ
  simp
  grind

theorem gcsToLcs_turned {ψ a a' : ℝ} (h : Turned ψ a a') (o : Vec3) (theta : ℝ) :
    gcsToLcs (turnedOri ψ o).coords theta a' = gcsToLcs o.coords theta a := by
  simp only [gcsToLcs, lcs_turned h]

theorem computePsi_turned {ψ a a' : ℝ} (h : Turned ψ a a') (o : Vec3) (theta : ℝ) :
    computePsi (turnedOri ψ o).coords theta a' = computePsi o.coords theta a := by
  obtain ⟨k, rfl⟩ := h
  have e : a + ψ + 2 * π * k - (turnedOri ψ o).coords 0 = a - o.coords 0 + k * (2 * π) := by
    simp only [turnedOri, Vec3.coords]; simp; ring
  simp only [computePsi, e, Real.sin_add_int_mul_two_pi, Real.cos_add_int_mul_two_pi]
  rfl

theorem fieldVector_turned {ψ a a' : ℝ} (h : Turned ψ a a') (arr : PanelArray) (o : Vec3) (theta : ℝ) (u : ℕ) :
    fieldVector arr (turnedOri ψ o).coords theta a' u = fieldVector arr o.coords theta a u := by
  simp only [fieldVector, l2gResponse, gcsToLcs_turned h, computePsi_turned h]

theorem position_turned {ψ a a' : ℝ} (h : Turned ψ a a') (o : Vec3) (p : Fin 3 → ℝ) (theta : ℝ) :
    ∑ k, unitSphere theta a' k * rotPos (turnedOri ψ o).coords p k = ∑ k, unitSphere theta a k * rotPos o.coords p k := by
  rw [unitSphere_turned h]
  have hj := fun j => forwardRot_turned ψ o j
  simp only [rotPos, mulVec, dotProduct, Fin.sum_univ_three, (hj _).1, (hj _).2.1, (hj _).2.2]
  have := Real.sin_sq_add_cos_sq ψ
  simp
  grind

theorem velocity_turned {ψ a a' : ℝ} (h : Turned ψ a a') (w : Vec3) (theta : ℝ) :
    ∑ k, unitSphere theta a' k * (turned ψ w).coords k = ∑ k, unitSphere theta a k * w.coords k := by
  rw [unitSphere_turned h]
  simp only [Fin.sum_univ_three, turned, Vec3.coords]
  have := Real.sin_sq_add_cos_sq ψ
  simp
  grind

/-! ### Coefficients -/

/-- Two topologies of a link, the second turned by `ψ`. -/
structure LinkTurned (ψ : ℝ) (l l' : LinkTopo) : Prop where
  velocity : ∃ w, l.velocity = Vec3.coords w ∧ l'.velocity = (turned ψ w).coords
  txOri : ∃ o, l.txOri = Vec3.coords o ∧ l'.txOri = (turnedOri ψ o).coords
  rxOri : ∃ o, l.rxOri = Vec3.coords o ∧ l'.rxOri = (turnedOri ψ o).coords
  movingRx : l'.movingRx = l.movingRx
  losAoa : Turned ψ l.losAoa l'.losAoa
  losAod : Turned ψ l.losAod l'.losAod
  losZoa : l'.losZoa = l.losZoa
  losZod : l'.losZod = l.losZod
  los : l'.los = l.los
  distance3d : l'.distance3d = l.distance3d
  bsHeight : l'.bsHeight = l.bsHeight
  satSpeed : l'.satSpeed = l.satSpeed
  doppler : l'.doppler = l.doppler

/-- The same for rays. -/
structure RaysTurned {M : ℕ} (ψ : ℝ) (r r' : LinkRays M) : Prop where
  delays : r'.delays = r.delays
  powers : r'.powers = r.powers
  aoa : ∀ i k, Turned ψ (r.aoa i k) (r'.aoa i k)
  aod : ∀ i k, Turned ψ (r.aod i k) (r'.aod i k)
  zoa : r'.zoa = r.zoa
  zod : r'.zod = r.zod
  xpr : r'.xpr = r.xpr

section

variable {χ : ℝ} {g : CoeffGen} {l l' : LinkTopo}

theorem fieldMatrix_turned (h : LinkTurned χ l l') {aoa aoa' aod aod' : ℝ} (ha : Turned χ aoa aoa') (hd : Turned χ aod aod')
    (zoa zod : ℝ) (P : Matrix (Fin 2) (Fin 2) ℂ) (u s : ℕ) :
    fieldMatrix g l' aoa' aod' zoa zod P u s = fieldMatrix g l aoa aod zoa zod P u s := by
  obtain ⟨o, ho, ho'⟩ := h.txOri
  obtain ⟨q, hq, hq'⟩ := h.rxOri
  simp only [fieldMatrix, ho, ho', hq, hq', fieldVector_turned ha, fieldVector_turned hd]

theorem arrayOffset_turned (h : LinkTurned χ l l') {aoa aoa' aod aod' : ℝ} (ha : Turned χ aoa aoa') (hd : Turned χ aod aod')
    (zoa zod : ℝ) (u s : ℕ) : arrayOffset g l' aoa' aod' zoa zod u s = arrayOffset g l aoa aod zoa zod u s := by
  obtain ⟨o, ho, ho'⟩ := h.txOri
  obtain ⟨q, hq, hq'⟩ := h.rxOri
  simp only [arrayOffset, ho, ho', hq, hq', position_turned ha, position_turned hd]

theorem dopplerTerm_turned (h : LinkTurned χ l l') {aoa aoa' aod aod' : ℝ} (ha : Turned χ aoa aoa') (hd : Turned χ aod aod')
    (zoa zod t : ℝ) : dopplerTerm g l' aoa' zoa aod' zod t = dopplerTerm g l aoa zoa aod zod t := by
  obtain ⟨w, hw, hw'⟩ := h.velocity
  have e : dopplerExponent g l' aoa' zoa aod' zod t = dopplerExponent g l aoa zoa aod zod t := by
    simp only [dopplerExponent, h.movingRx, h.bsHeight, h.satSpeed, h.doppler, hw, hw']
    cases l.movingRx
    · simp only [Bool.false_eq_true, if_false, velocity_turned hd]
    · simp only [if_true, velocity_turned ha]
  rw [dopplerTerm, dopplerTerm, e]

theorem withFaraday_turned (h : LinkTurned χ l l') (P : Matrix (Fin 2) (Fin 2) ℂ) : withFaraday g l' P = withFaraday g l P := by
  simp only [withFaraday, h.bsHeight]

theorem coeffCall_turned {n : ℕ} (h : LinkTurned χ l l') {r r' : LinkRays (n + 2)} (hr : RaysTurned χ r r') (k cDs : ℝ)
    (phi : Fin (n + 2) → Fin raysPerCluster → Fin 4 → ℝ) : coeffCall g l' k r' cDs phi = coeffCall g l k r cDs phi := by
  have e1 : nlosRay g l' r' phi = nlosRay g l r phi := by
    funext i m u s t
    simp only [nlosRay, hr.zoa, hr.zod, hr.xpr, hr.powers, withFaraday_turned h, fieldMatrix_turned h (hr.aoa i m) (hr.aod i m),
      arrayOffset_turned h (hr.aoa i m) (hr.aod i m), dopplerTerm_turned h (hr.aoa i m) (hr.aod i m)]
  have e2 : losCoeff g l' = losCoeff g l := by
    funext u s t
    simp only [losCoeff, h.losZoa, h.losZod, h.distance3d, withFaraday_turned h, fieldMatrix_turned h h.losAoa h.losAod,
      arrayOffset_turned h h.losAoa h.losAod, dopplerTerm_turned h h.losAoa h.losAod]
  simp only [coeffCall, e1, e2, hr.powers, hr.delays, h.los]

end

/-! ### Rays -/

theorem azimuthRay_same (cl s o : ℝ) : SameDeg (azimuthRay cl s o) (cl + s * o) := by
  simp only [azimuthRay]
  split
  · obtain ⟨k, hk⟩ := wrap_same (cl + s * o)
    exact ⟨k - 1, by rw [hk]; push_cast; ring⟩
  · exact wrap_same _

/-- Both fail in the same way, or the angles are turned. -/
def BothTurned {M : ℕ} (χ : ℝ) (x x' : Except Err (Fin M → Fin raysPerCluster → ℝ)) : Prop :=
  (∃ e, x = .error e ∧ x' = .error e) ∨ ∃ f f', x = .ok f ∧ x' = .ok f' ∧ ∀ i k, SameDeg (f' i k) (f i k + rad2deg χ)

section

variable {M : ℕ} [NeZero M] {χ : ℝ}

theorem azimuthClusters_shift (los : Bool) (spread k x : ℝ) (p : Fin M → ℝ) (sign : Fin M → Bool) (z : Fin M → ℝ) :
    azimuthClusters c los spread k x p sign z = (azimuthClusters c los spread k 0 p sign z).map fun f i => f i + x := by
  unfold azimuthClusters
  rcases cPhi c los k with e | cp
  · rfl
  rcases relativePower p with e | rel
  · rfl
  simp only [bind, Except.bind]
  split
  · rfl
  · simp only [Except.map, Except.ok.injEq]
    funext i
    ring

theorem azimuths_turned (los : Bool) (spread k : ℝ) {x x' : ℝ} (h : SameDeg x' (x + rad2deg χ)) (p : Fin M → ℝ) (sign : Fin M → Bool)
    (z : Fin M → ℝ) (cas : ℝ) :
    BothTurned χ ((azimuthClusters c los spread k x p sign z).map fun cl i r => azimuthRay (cl i) cas (rayOffsets r))
      ((azimuthClusters c los spread k x' p sign z).map fun cl i r => azimuthRay (cl i) cas (rayOffsets r)) := by
  rw [azimuthClusters_shift los spread k x, azimuthClusters_shift los spread k x']
  rcases azimuthClusters c los spread k 0 p sign z with e | f
  · exact .inl ⟨e, rfl, rfl⟩
  · refine .inr ⟨_, _, rfl, rfl, fun i r => ?_⟩
    refine (azimuthRay_same _ _ _).trans (SameDeg.trans ?_ ((azimuthRay_same _ _ _).symm.add_right _))
    obtain ⟨m, rfl⟩ := h
    exact ⟨m, by ring⟩

theorem arrival_turned (los : Bool) (spread k : ℝ) {x x' : ℝ} (h : SameDeg x' (x + rad2deg χ)) (p : Fin M → ℝ) (sign : Fin M → Bool)
    (z : Fin M → ℝ) : BothTurned χ (azimuthOfArrival c los spread k x p sign z) (azimuthOfArrival c los spread k x' p sign z) := by
  unfold azimuthOfArrival
  rcases c.getReal .pcASA los with e | cas
  · exact .inl ⟨e, rfl, rfl⟩
  · have := azimuths_turned (c := c) los spread k h p sign z cas
    simp only [bind, Except.bind]
    exact this

theorem departure_turned (los : Bool) (height spread k : ℝ) {x x' : ℝ} (h : SameDeg x' (x + rad2deg χ)) (p : Fin M → ℝ)
    (sign : Fin M → Bool) (z : Fin M → ℝ) :
    BothTurned χ (azimuthOfDeparture c los height spread k x p sign z) (azimuthOfDeparture c los height spread k x' p sign z) := by
  unfold azimuthOfDeparture
  rcases c.getReal .pcASD los with e | cas
  · exact .inl ⟨e, rfl, rfl⟩
  · have := azimuths_turned (c := c) los (departureSpread height spread) k h p sign z cas
    simp only [bind, Except.bind]
    exact this

end

omit [NeZero B] in
/-- The rays of a link in a turned scene. -/
theorem raysCall_turned {M : ℕ} [NeZero B] [NeZero N] [NeZero M] (i : RayInputs B N U) (w : RayDraws B N U M) (b : Fin B) (n : Fin N) (u : Fin U) :
    (∃ e, raysCall c i w b n u = .error e ∧
      raysCall c { i with angles := fun b n u => turnedAngles (ψ b) (i.angles b n u) } w b n u = .error e) ∨
    ∃ r r', raysCall c i w b n u = .ok r ∧
      raysCall c { i with angles := fun b n u => turnedAngles (ψ b) (i.angles b n u) } w b n u = .ok r' ∧ RaysTurned (ψ b) r r' := by
  have ha : ∀ x : ℝ, SameDeg (wrapAngle0_360 (x + rad2deg (ψ b))) (x + rad2deg (ψ b)) := fun x => wrap_same _
  unfold raysCall
  dsimp only [turnedAngles]
  rcases clusterDelays c (i.los b n u) (i.lsp b n u).ds (i.lsp b n u).kFactor (fun k : Fin M => i.mask b n u k) (w.delay b n u) with
    e | ⟨delays, unscaled⟩
  · exact .inl ⟨e, rfl, rfl⟩
  simp only [bind, Except.bind]
  rcases clusterPowers c (i.los b n u) (i.lsp b n u).ds (i.lsp b n u).kFactor (fun k : Fin M => i.mask b n u k) unscaled (w.shadow b n u) with
    e | ⟨powers, pa⟩
  · exact .inl ⟨e, rfl, rfl⟩
  dsimp only
  rcases arrival_turned (c := c) (i.los b n u) (i.lsp b n u).asa (i.lsp b n u).kFactor (ha (i.angles b n u).aoa) pa (w.signAoa b n)
    (w.aoa b n u) with ⟨e, h1, h2⟩ | ⟨f, f', h1, h2, hf⟩
  · rw [h1, h2]; exact .inl ⟨e, rfl, rfl⟩
  rw [h1, h2]
  dsimp only
  rcases departure_turned (c := c) (i.los b n u) (i.bsHeight 0 0) (i.lsp b n u).asd (i.lsp b n u).kFactor (ha (i.angles b n u).aod) pa
    (w.signAod b n) (w.aod b n u) with ⟨e, h1, h2⟩ | ⟨q, q', h1, h2, hq⟩
  · rw [h1, h2]; exact .inl ⟨e, rfl, rfl⟩
  rw [h1, h2]
  dsimp only
  rcases zenithOfArrival c (i.los b n u) (i.indoor b u) (i.lsp b n u).zsa (i.lsp b n u).kFactor (i.angles b n u).zoa pa (w.signZoa b n)
    (w.zoa b n u) with e | zoa
  · exact .inl ⟨e, rfl, rfl⟩
  dsimp only
  rcases zenithOfDeparture c (i.los b n u) (i.indoor b u) (i.bsHeight 0 0) (i.lsp b n u).zsd (i.lsp b n u).kFactor (i.angles b n u).zod
    (i.zodOff b n u) (i.meanZsd b n u) pa (w.signZod b n) (w.zod b n u) with e | zod
  · exact .inl ⟨e, rfl, rfl⟩
  dsimp only
  rcases crossPolarization c (i.los b n u) (w.xpr b n u) with e | xpr
  · exact .inl ⟨e, rfl, rfl⟩
  refine .inr ⟨_, _, rfl, rfl, ?_⟩
  constructor
  · rfl
  · rfl
  · intro m r; exact turned_of_deg (hf m _)
  · intro m r; exact turned_of_deg (hq m _)
  · rfl
  · rfl
  · rfl

/-! ### The scenario -/

omit [NeZero B] in
theorem andThen_turn {r r' : Step B N U} {f f' : TopoState B N U → Step B N U} (hr : r' = (turnTopo ψ r.1, r.2))
    (hf : ∀ s, f' (turnTopo ψ s) = (turnTopo ψ (f s).1, (f s).2)) : r'.andThen f' = (turnTopo ψ (r.andThen f).1, (r.andThen f).2) := by
  subst hr
  unfold Step.andThen
  rcases h : r.2 with _ | e <;> simp only [hf]

/-- In every example that is turned, no satellite is vertically above or below a UT. -/
def AllBeside (ψ : Fin B → ℝ) (ut : Option (PerUt B U Vec3)) (bs : Option (PerBs B N Vec3)) : Prop :=
  ∀ p q, ut = some p → bs = some q → ∀ b n u, ψ b = 0 ∨ Beside (p b u) (q b n)

theorem turnedAngles_zero (p q : Vec3) : turnedAngles 0 (losAngles p q) = losAngles p q := by
  have h : ∀ x, wrapAngle0_360 (wrapAngle0_360 x + rad2deg 0) = wrapAngle0_360 x := fun x => by
    have h0 : rad2deg 0 = 0 := by simp [rad2deg]
    rw [h0, add_zero]
    exact (wrap_same x).wrap
  simp only [turnedAngles, losAngles, h]

theorem turned_zero (p : Vec3) : turned 0 p = p := by simp [turned]

theorem computeDistances_turn (s : TopoState B N U) (hz : AllBeside ψ s.utLoc s.bsLoc) :
    computeDistances c (turnTopo ψ s) = (turnTopo ψ (computeDistances c s).1, (computeDistances c s).2) := by
  unfold computeDistances
  rcases h1 : s.utLoc with _ | ut <;> rcases h2 : s.bsLoc with _ | bs <;> simp only [turnTopo, h1, h2, Option.map_some, Option.map_none]
  by_cases hN : N = 1
  · simp only [hN, dite_true, h1, h2, Option.map_some, Prod.mk.injEq, TopoState.mk.injEq, Option.some.injEq, true_and, and_true]
    refine ⟨?_, rfl, ?_, ?_⟩
    · funext b n u; exact distance2d_turned _ _ _
    · funext b n u
      rcases hz ut bs h1 h2 b n u with h | h
      · rw [h, turned_zero, turned_zero, turnedAngles_zero]
      · exact losAngles_turned h _
    · funext b; exact utDistance2d_turned (ut b) (ψ b)
  · simp only [hN, dite_false, h1, h2, Option.map_some, Prod.mk.injEq, TopoState.mk.injEq, Option.some.injEq, true_and, and_true]
    funext b n u; exact distance2d_turned _ _ _

omit [NeZero B] in
theorem sampleIndoorDistance_turn (d : TopoDraws B N U) (s : TopoState B N U) : sampleIndoorDistance d (turnTopo ψ s) =
    (turnTopo ψ (sampleIndoorDistance d s).1, (sampleIndoorDistance d s).2) := by
  unfold sampleIndoorDistance
  rcases h1 : s.inState with _ | i <;> rcases h2 : s.distance2d with _ | d2 <;> rcases h3 : s.distance3d with _ | d3 <;>
    simp only [turnTopo, h1, h2, h3]

omit [NeZero B] in
theorem sampleLos_turn (d : TopoDraws B N U) (s : TopoState B N U) : sampleLos c d (turnTopo ψ s) =
    (turnTopo ψ (sampleLos c d s).1, (sampleLos c d s).2) := by
  unfold sampleLos
  rcases h1 : s.inState with _ | i <;> rcases h2 : s.requestedLos with _ | r <;> simp only [turnTopo, h1, h2]
  rcases h3 : c.losProbability with e | p
  · simp only [h1, h2]
  · cases p with
    | bot => simp only [h1, h2]
    | coe p => simp only [h1, h2]

omit [NeZero B] in
theorem computeLsp_turn (s : TopoState B N U) : computeLspLogMeanStd c (turnTopo ψ s) =
    (turnTopo ψ (computeLspLogMeanStd c s).1, (computeLspLogMeanStd c s).2) := by
  unfold computeLspLogMeanStd
  rcases h1 : s.utLoc with _ | ut <;> rcases h2 : s.bsLoc with _ | bs <;> rcases h3 : s.los with _ | los <;>
    rcases h4 : s.distance2d with _ | d2 <;> simp only [turnTopo, h1, h2, h3, h4, Option.map_some, Option.map_none]
  rcases bothStates (lspLogMean c) with e | mean
  · simp only [h1, h2, h3, h4, Option.map_some]
  rcases bothStates (fun near => bothStates fun l => lspLogStd c l near) with e | std
  · simp only [h1, h2, h3, h4, Option.map_some]
  · simp only [h1, h2, h3, h4, Option.map_some]
    rfl

omit [NeZero B] in
theorem computePathlossBasic_turn (d : TopoDraws B N U) (s : TopoState B N U) : computePathlossBasic c d (turnTopo ψ s) =
    (turnTopo ψ (computePathlossBasic c d s).1, (computePathlossBasic c d s).2) := by
  unfold computePathlossBasic
  rcases h1 : s.distance3d with _ | d3 <;> rcases h2 : s.los with _ | los <;> simp only [turnTopo, h1, h2]
  rcases c.rowReal c.paramsNlos .pCL with e | cl <;> rcases c.rowReal c.paramsLos .psigmaSF with e | sl <;>
    rcases c.rowReal c.paramsNlos .psigmaSF with e | sn <;> simp only [h1, h2]

omit [NeZero B] in
theorem computePathlossGas_turn (s : TopoState B N U) : computePathlossGas c (turnTopo ψ s) =
    (turnTopo ψ (computePathlossGas c s).1, (computePathlossGas c s).2) := by
  unfold computePathlossGas
  rcases h1 : s.atmosphere with _ | a <;> rcases h2 : s.los with _ | los <;> simp only [turnTopo, h1, h2]
  rcases gasLoss (c.carrierFrequency / 10 ^ 9) c.elevationAngle a with e | g <;> simp only [h1, h2]

omit [NeZero B] in
theorem computePathlossEntry_turn (s : TopoState B N U) : computePathlossEntry (turnTopo ψ s) =
    (turnTopo ψ (computePathlossEntry s).1, (computePathlossEntry s).2) := by
  unfold computePathlossEntry
  rcases h2 : s.los with _ | los <;> simp only [turnTopo, h2]

omit [NeZero B] in
theorem computePathlossScint_turn (s : TopoState B N U) : computePathlossScint c (turnTopo ψ s) =
    (turnTopo ψ (computePathlossScint c s).1, (computePathlossScint c s).2) := by
  unfold computePathlossScint
  rcases h1 : s.atmosphere with _ | a <;> rcases h2 : s.los with _ | los <;> simp only [turnTopo, h1, h2]
  rcases scintLoss (c.carrierFrequency / 10 ^ 9) c.elevationAngle a with e | g <;> simp only [h1, h2]

theorem updateTopology_turn (d : TopoDraws B N U) (s : TopoState B N U) (hz : AllBeside ψ s.utLoc s.bsLoc) :
    updateTopology c d (turnTopo ψ s) = (turnTopo ψ (updateTopology c d s).1, (updateTopology c d s).2) := by
  unfold updateTopology
  exact andThen_turn (andThen_turn (andThen_turn (andThen_turn (andThen_turn (andThen_turn (andThen_turn (computeDistances_turn s hz)
    (sampleIndoorDistance_turn d)) (sampleLos_turn d)) computeLsp_turn) (computePathlossBasic_turn d)) computePathlossGas_turn)
    computePathlossEntry_turn) computePathlossScint_turn

omit [NeZero B] in
theorem storeArgs_turn (s : TopoState B N U) (a : TopoArgs B N U) :
    storeArgs (turnTopo ψ s) (turnTopoArgs ψ a) = turnTopo ψ (storeArgs s a) := by
  have h : ∀ {α β : Type} (f : α → β) (x y : Option α), assign (x.map f) (y.map f) = (assign x y).map f := by
    intro α β f x y; cases x <;> rfl
  simp only [storeArgs, turnTopo, turnTopoArgs, h, TopoState.mk.injEq, true_and, and_true]
  rfl

theorem setTopology_turn (s : TopoState B N U) (a : TopoArgs B N U) (d : TopoDraws B N U)
    (hz : AllBeside ψ (assign a.utLoc s.utLoc) (assign a.bsLoc s.bsLoc)) :
    setTopology c (turnTopo ψ s) (turnTopoArgs ψ a) d = (turnTopo ψ (setTopology c s a d).1, (setTopology c s a d).2) := by
  have h1 : assertsHold (turnTopo ψ s) (turnTopoArgs ψ a) = assertsHold s a := by
    simp only [assertsHold, turnTopo, turnTopoArgs, Option.isSome_map]
  have h2 : needForUpdate (turnTopoArgs ψ a) = needForUpdate a := by
    simp only [needForUpdate, turnTopoArgs, Option.isSome_map]
  unfold setTopology
  rw [h1, h2, storeArgs_turn]
  by_cases ha : assertsHold s a
  · rw [if_pos ha, if_pos ha]
    dsimp only
    by_cases hn : needForUpdate a
    · rw [if_pos hn, if_pos hn, updateTopology_turn d (storeArgs s a) hz]
      rcases updateTopology c d (storeArgs s a) with ⟨t, _ | e⟩ <;> rfl
    · rw [if_neg hn, if_neg hn]
  · rw [if_neg ha, if_neg ha]

/-! ### The channel model -/

omit [NeZero B] in
theorem spatialFactors_turn (los : PerLink B N U Bool) (indoor : PerUt B U Bool) (ut : PerUt B U Vec3) :
    spatialFactors c los indoor (fun b u => turned (ψ b) (ut b u)) = spatialFactors c los indoor ut := by
  have h : ∀ (b : Fin B) (n : Fin N) (i : Fin 7), spatialCorrelationOf c (los b n) (indoor b) (fun u => (turned (ψ b) (ut b u)).x)
      (fun u => (turned (ψ b) (ut b u)).y) i =
      spatialCorrelationOf c (los b n) (indoor b) (fun u => (ut b u).x) (fun u => (ut b u).y) i := by
    intro b n i
    simp only [spatialCorrelationOf, utDistance2d_turned (ut b) (ψ b)]
  unfold spatialFactors
  simp only [h]

omit [NeZero B] in
theorem sampleLsp_turn (s : ChanState B N U) (z : PerLink B N U (Fin 7 → ℝ)) : sampleLsp (turnChan ψ s) z = sampleLsp s z := rfl

omit [NeZero B] in
theorem chanUpdate_turn (s : ChanState B N U) (z : PerLink B N U (Fin 7 → ℝ)) :
    chanUpdate c always (turnChan ψ s) z = (turnChan ψ (chanUpdate c always s z).1, (chanUpdate c always s z).2) := by
  have key : lspCallback c (turnChan ψ s) = (turnChan ψ (lspCallback c s).1, (lspCallback c s).2) := by
    unfold lspCallback
    rcases h1 : s.topo.los with _ | los <;> rcases h2 : s.topo.inState with _ | ind <;> rcases h3 : s.topo.utLoc with _ | ut <;>
      simp only [turnChan, turnTopo, h1, h2, h3, Option.map_some, Option.map_none]
    rcases crossFactors c los with e | F
    · simp only [h1, h2, h3, Option.map_some]
    rw [spatialFactors_turn]
    rcases spatialFactors c los ind ut with e | G <;> simp only [h1, h2, h3, Option.map_some]
  have key2 : ∀ s : ChanState B N U, rayCallback c (turnChan ψ s) = (turnChan ψ (rayCallback c s).1, (rayCallback c s).2) := by
    intro s
    unfold rayCallback
    rcases h1 : s.topo.los with _ | los <;> rcases h2 : s.topo.inState with _ | ind <;> simp only [turnChan, turnTopo, h1, h2]
    rcases c.numClustersLos with e | nl <;> rcases c.numClustersNlos with e | nn <;> simp only [h1, h2]
  unfold chanUpdate
  rw [key]
  rcases lspCallback c s with ⟨s1, _ | e⟩
  · dsimp only
    rw [key2]
    rcases rayCallback c s1 with ⟨s2, _ | e⟩
    · dsimp only
      cases always
      · simp only [Bool.false_eq_true, if_false, sampleLsp_turn]
        rcases sampleLsp s2 z with e | l <;> rfl
      · rfl
    · rfl
  · rfl

theorem chanSetTopology_turn (s : ChanState B N U) (a : ChanArgs B N U) (d : TopoDraws B N U) (z : PerLink B N U (Fin 7 → ℝ))
    (hz : AllBeside ψ (assign a.utLoc s.topo.utLoc) (assign a.bsLoc s.topo.bsLoc)) :
    chanSetTopology c always (turnChan ψ s) (turnChanArgs ψ a) d z =
      (turnChan ψ (chanSetTopology c always s a d z).1, (chanSetTopology c always s a d z).2) := by
  have e : setTopology c (turnChan ψ s).topo (turnChanArgs ψ a).toTopo d =
      (turnTopo ψ (setTopology c s.topo a.toTopo d).1, (setTopology c s.topo a.toTopo d).2) :=
    setTopology_turn (a := a.toTopo) s.topo d hz
  unfold chanSetTopology
  rw [e]
  rcases hr : setTopology c s.topo a.toTopo d with ⟨t, e | _ | _⟩
  · rfl
  · rfl
  · dsimp only
    have k : chanUpdate c always { turnChan ψ s with topo := turnTopo ψ t } z =
        (turnChan ψ (chanUpdate c always { s with topo := t } z).1, (chanUpdate c always { s with topo := t } z).2) :=
      chanUpdate_turn { s with topo := t } z
    rw [k]
    rcases chanUpdate c always { s with topo := t } z with ⟨s2, _ | e⟩ <;> rfl

omit [NeZero B] in
theorem callInputs_turn (s : ChanState B N U) (z : PerLink B N U (Fin 7 → ℝ)) :
    callInputs always (turnChan ψ s) z = (callInputs always s z).map (turnCall ψ) := by
  unfold callInputs
  cases always
  · simp only [Bool.false_eq_true, if_false, turnChan, turnTopo]
    rcases s.lsp with _ | l
    · rfl
    rcases s.mask with _ | m
    · rfl
    rcases s.topo.los with _ | m
    · rfl
    rcases s.topo.angles with _ | m
    · rfl
    rcases s.topo.distance3d with _ | m
    · rfl
    rcases s.topo.utVel with _ | m
    · rfl
    rcases s.topo.utOri with _ | m
    · rfl
    rcases s.topo.bsOri with _ | m
    · rfl
    rcases s.topo.bsLoc with _ | m
    · rfl
    rfl
  · simp only [if_true, sampleLsp_turn]
    rcases sampleLsp s z with e | l
    · rfl
    simp only [Except.map, turnChan, turnTopo]
    rcases s.mask with _ | m
    · rfl
    rcases s.topo.los with _ | m
    · rfl
    rcases s.topo.angles with _ | m
    · rfl
    rcases s.topo.distance3d with _ | m
    · rfl
    rcases s.topo.utVel with _ | m
    · rfl
    rcases s.topo.utOri with _ | m
    · rfl
    rcases s.topo.bsOri with _ | m
    · rfl
    rcases s.topo.bsLoc with _ | m
    · rfl
    rfl

/-- In a history the positions of UTs and satellites that were ever passed are not on vertical lines (in the turned examples). -/
def LogBeside (ψ : Fin B → ℝ) (log : List (ChanEvent B N U)) : Prop :=
  ∀ a d z x a' d' z' x', ChanEvent.topology a d z x ∈ log → ChanEvent.topology a' d' z' x' ∈ log → AllBeside ψ a.utLoc a'.bsLoc

theorem reach_turn (h : mkScenario cls sa = .ok c) {log : List (ChanEvent B N U)} {s : ChanState B N U} (r : ChanReach c always log s)
    (hz : LogBeside ψ log) :
    ChanReach c always (log.map (turnEvent ψ)) (turnChan ψ s) ∧
    (∀ p, s.topo.utLoc = some p → ∃ a d z x, ChanEvent.topology a d z x ∈ log ∧ a.utLoc = some p) ∧
    ∀ p, s.topo.bsLoc = some p → ∃ a d z x, ChanEvent.topology a d z x ∈ log ∧ a.bsLoc = some p := by
  induction r with
  | init => exact ⟨.init, (fun p hp => by cases hp), (fun p hp => by cases hp)⟩
  | @topology log s a d z r ih =>
    obtain ⟨ih1, ih2, ih3⟩ := ih fun a d z x a' d' z' x' hm hm' => hz a d z x a' d' z' x' (List.mem_cons_of_mem _ hm) (List.mem_cons_of_mem _ hm')
    have h2 : ∀ p, assign a.utLoc s.topo.utLoc = some p → ∃ a' d' z' x,
        ChanEvent.topology a' d' z' x ∈ ChanEvent.topology a d z (chanSetTopology c always s a d z).2 :: log ∧ a'.utLoc = some p := by
      intro p hp
      rcases hb : a.utLoc with _ | q
      · rw [hb] at hp
        obtain ⟨a', d', z', x, hm, e⟩ := ih2 p hp
        exact ⟨a', d', z', x, List.mem_cons_of_mem _ hm, e⟩
      · rw [hb] at hp
        exact ⟨a, d, z, _, List.mem_cons_self, hb.trans hp⟩
    have h3 : ∀ p, assign a.bsLoc s.topo.bsLoc = some p → ∃ a' d' z' x,
        ChanEvent.topology a' d' z' x ∈ ChanEvent.topology a d z (chanSetTopology c always s a d z).2 :: log ∧ a'.bsLoc = some p := by
      intro p hp
      rcases hb : a.bsLoc with _ | q
      · rw [hb] at hp
        obtain ⟨a', d', z', x, hm, e⟩ := ih3 p hp
        exact ⟨a', d', z', x, List.mem_cons_of_mem _ hm, e⟩
      · rw [hb] at hp
        exact ⟨a, d, z, _, List.mem_cons_self, hb.trans hp⟩
    have e := chanSetTopology_turn (ψ := ψ) (c := c) (always := always) s a d z (fun p q hp hq => by
      obtain ⟨a1, d1, z1, x1, m1, e1⟩ := h2 p hp
      obtain ⟨a2, d2, z2, x2, m2, e2⟩ := h3 q hq
      exact hz _ _ _ _ _ _ _ _ m1 m2 p q e1 e2)
    have r' := ChanReach.topology (turnChanArgs ψ a) d z ih1
    rw [e] at r'
    refine ⟨r', ?_⟩
    rw [chanSetTopology_topo]
    rcases setTopology_cases h s.topo a.toTopo d with ⟨-, e⟩ | ⟨-, -, e⟩ | ⟨-, -, hb, -⟩
    · rw [e]
      refine ⟨fun p hp => ?_, fun p hp => ?_⟩
      · obtain ⟨a', d', z', x, hm, e⟩ := ih2 p hp
        exact ⟨a', d', z', x, List.mem_cons_of_mem _ hm, e⟩
      · obtain ⟨a', d', z', x, hm, e⟩ := ih3 p hp
        exact ⟨a', d', z', x, List.mem_cons_of_mem _ hm, e⟩
    · rw [e]; exact ⟨h2, h3⟩
    · rw [hb.bsLoc, hb.utLoc]; exact ⟨h2, h3⟩
  | @generate log s z r ih =>
    obtain ⟨ih1, ih2, ih3⟩ := ih fun a d z x a' d' z' x' hm hm' => hz a d z x a' d' z' x' (List.mem_cons_of_mem _ hm) (List.mem_cons_of_mem _ hm')
    have r' := ChanReach.generate z ih1
    rw [callInputs_turn] at r'
    refine ⟨r', fun p hp => ?_, fun p hp => ?_⟩
    · obtain ⟨a', d', z', x, hm, e⟩ := ih2 p hp
      exact ⟨a', d', z', x, List.mem_cons_of_mem _ hm, e⟩
    · obtain ⟨a', d', z', x, hm, e⟩ := ih3 p hp
      exact ⟨a', d', z', x, List.mem_cons_of_mem _ hm, e⟩

/-- The rays of all links in a turned scene. -/
def AllRaysTurned {X Y M : ℕ} (ψ : Fin B → ℝ) (r r' : PerLink B X Y (Except Err (LinkRays M))) : Prop :=
  ∀ b x y, (∃ e, r b x y = .error e ∧ r' b x y = .error e) ∨ ∃ q q', r b x y = .ok q ∧ r' b x y = .ok q' ∧ RaysTurned (ψ b) q q'

omit [NeZero B] in
theorem sampler_down {n : ℕ} {g : CoeffGen} {k : PerLink B N U ℝ} {r r' : PerLink B N U (Except Err (LinkRays (n + 2)))}
    {t t' : TopologyT B N U} {cDs : PerLink B N U (Except Err ℝ)} {phi : Fin B → ℕ → ℕ → Fin (n + 2) → Fin raysPerCluster → Fin 4 → ℝ}
    (hr : AllRaysTurned ψ r r') (ht : ∀ b x y, LinkTurned (ψ b) (t.link b x y) (t'.link b x y)) :
    cirSampler g k (.ofLinks r') t' cDs phi = cirSampler g k (.ofLinks r) t cDs phi := by
  funext b x y
  rcases hr b x y with ⟨e, h1, h2⟩ | ⟨q, q', h1, h2, hq⟩
  · simp only [cirSampler, RaysT.ofLinks, h1, h2, Except.map, bind, Except.bind]
  · simp only [cirSampler, RaysT.ofLinks, h1, h2, Except.map, bind, Except.bind]
    rcases cDs b x y with e | v
    · rfl
    · dsimp only
      rw [coeffCall_turned (ht b x y) (r := ⟨q.delays, q.powers, q.aoa, q.aod, q.zoa, q.zod, q.xpr⟩)
        ⟨hq.delays, hq.powers, hq.aoa, hq.aod, hq.zoa, hq.zod, hq.xpr⟩]

omit [NeZero B] in
theorem sampler_up {n : ℕ} {g : CoeffGen} {k : PerLink B U N ℝ} {r r' : PerLink B N U (Except Err (LinkRays (n + 2)))}
    {t t' : TopologyT B U N} {cDs : PerLink B U N (Except Err ℝ)} {phi : Fin B → ℕ → ℕ → Fin (n + 2) → Fin raysPerCluster → Fin 4 → ℝ}
    (hr : AllRaysTurned ψ r r') (ht : ∀ b x y, LinkTurned (ψ b) (t.link b x y) (t'.link b x y)) :
    cirSampler g k (raysUp (.ofLinks r')) t' cDs phi = cirSampler g k (raysUp (.ofLinks r)) t cDs phi := by
  funext b x y
  rcases hr b y x with ⟨e, h1, h2⟩ | ⟨q, q', h1, h2, hq⟩
  · simp only [cirSampler, raysUp, swapAxes, RaysT.ofLinks, h1, h2, Except.map, bind, Except.bind]
  · simp only [cirSampler, raysUp, swapAxes, RaysT.ofLinks, h1, h2, Except.map, bind, Except.bind]
    rcases cDs b x y with e | v
    · rfl
    · dsimp only
      rw [coeffCall_turned (ht b x y) (r := ⟨q.delays, q.powers, q.aod, q.aoa, q.zod, q.zoa, q.xpr⟩)
        (r' := ⟨q'.delays, q'.powers, q'.aod, q'.aoa, q'.zod, q'.zoa, q'.xpr⟩)
        ⟨hq.delays, hq.powers, hq.aod, hq.aoa, hq.zod, hq.zoa, hq.xpr⟩]

omit [NeZero B] in
theorem turnedDeg (χ x : ℝ) : Turned χ (deg2rad x) (deg2rad (wrapAngle0_360 (x + rad2deg χ))) := turned_of_deg (wrap_same _)

/-- A call. -/
theorem cirCall_turn {n : ℕ} [NeZero N] {utArray bsArray : PanelArray} {fs : ℝ} (s : ChanState B N U) (w : CirDraws B N U (n + 2)) :
    cirCall c always utArray bsArray fs (turnChan ψ s) w = cirCall c always utArray bsArray fs s w := by
  unfold cirCall
  rw [callInputs_turn]
  rcases h1 : callInputs always s w.lsp with e | i
  · rfl
  have hri : rayInputs (turnChan ψ s).topo (turnCall ψ i) = (rayInputs s.topo i).map fun q =>
      { q with angles := fun b n u => turnedAngles (ψ b) (q.angles b n u) } := by
    unfold rayInputs
    simp only [turnChan, turnTopo]
    rcases s.topo.inState with _ | m
    · rfl
    rcases s.topo.lspMean with _ | m
    · rfl
    rcases s.topo.zodOff with _ | m
    · rfl
    rfl
  have hpl : stepPathloss c (turnChan ψ s).topo = stepPathloss c s.topo := rfl
  simp only [Except.map, bind, Except.bind, hri, hpl]
  rcases h2 : rayInputs s.topo i with e | ri
  · rfl
  simp only
  by_cases hN : N = 1
  · simp only [hN, ne_eq, not_true_eq_false, if_false]
    rcases h3 : stepPathloss c s.topo with e | pl
    · rfl
    have hr : AllRaysTurned ψ (raysCall c ri w.rays)
        (raysCall c { ri with angles := fun b n u => turnedAngles (ψ b) (ri.angles b n u) } w.rays) := by
      intro b x y
      exact raysCall_turned ri w.rays b x y
    by_cases hd : c.direction = "uplink"
    · simp only [hd, if_true, Except.ok.injEq, Sum.inr.injEq]
      unfold cirFinish
      rw [sampler_up (t := topologyUp c i (i.bsLoc 0 0).z w.satDirection) hr]
      · rfl
      intro b x y
      constructor
      · exact ⟨i.utVel b x, rfl, rfl⟩
      · exact ⟨i.utOri b x, rfl, rfl⟩
      · exact ⟨i.bsOri b y, rfl, rfl⟩
      · rfl
      · exact turnedDeg _ _
      · exact turnedDeg _ _
      all_goals rfl
    · simp only [hd, if_false, Except.ok.injEq, Sum.inl.injEq]
      unfold cirFinish
      rw [sampler_down (t := topologyDown c i (i.bsLoc 0 0).z w.satDirection) hr]
      · rfl
      intro b x y
      constructor
      · exact ⟨i.utVel b y, rfl, rfl⟩
      · exact ⟨i.bsOri b x, rfl, rfl⟩
      · exact ⟨i.utOri b y, rfl, rfl⟩
      · rfl
      · exact turnedDeg _ _
      · exact turnedDeg _ _
      all_goals rfl
  · simp only [hN, ne_eq, not_false_eq_true, if_true]

/-! ### C124 -/

/-- C124: turning a scene about the vertical axis (positions, orientations and velocities, each example of the batch by an angle of its
own) changes no outcome of `set_topology`, no attribute other than these and the azimuths, and no impulse response, over any history
in which no satellite is vertically above or below a UT. -/
theorem C124_heading {n : ℕ} [NeZero N] (h : mkScenario cls sa = .ok c) (ψ : Fin B → ℝ) {log : List (ChanEvent B N U)}
    {s : ChanState B N U} (r : ChanReach c always log s) (hz : LogBeside ψ log) :
    ChanReach c always (log.map (turnEvent ψ)) (turnChan ψ s) ∧
    ∀ (utArray bsArray : PanelArray) (fs : ℝ) (w : CirDraws B N U (n + 2)),
      cirCall c always utArray bsArray fs (turnChan ψ s) w = cirCall c always utArray bsArray fs s w :=
  ⟨(reach_turn h r hz).1, fun _ _ _ w => cirCall_turn s w⟩

/-- UTs at different places, none below the satellite. -/
noncomputable def exAside (B U : ℕ) : ChanArgs B 1 U := { exChan B 1 U with bsLoc := some fun _ _ => ⟨0, 30000, 600000⟩ }

theorem exAside_ok (h : mkScenario cls sa = .ok c) (always : Bool) (B U : ℕ) [NeZero B] :
    (chanSetTopology c always (ChanState.init c) (exAside B U) (exDraws B 1 U) (exZ B 1 U)).2 = .ok () ∧
    Apart [ChanEvent.topology (exAside B U) (exDraws B 1 U) (exZ B 1 U) (.ok ())] := by
  have ap : ∀ x, Apart [ChanEvent.topology (exAside B U) (exDraws B 1 U) (exZ B 1 U) x] := by
    intro x a d z x ut hm hut b u v hx hy
    rw [List.mem_singleton] at hm
    injection hm with hm
    refine exChan_apart B 1 U (exDraws B 1 U) (exZ B 1 U) (.ok ()) (exChan B 1 U) _ _ _ ut List.mem_cons_self ?_ b u v hx hy
    rw [hm] at hut
    exact hut
  refine ⟨?_, ap _⟩
  have r := ChanReach.topology (exAside B U) (exDraws B 1 U) (exZ B 1 U) (ChanReach.init (c := c) (always := always))
  rcases (channel_ready h rfl r (ap _)).1 _ _ _ _ List.mem_cons_self with e | e
  · exact e
  · have := complete_call h (exAside B U).toTopo (exDraws B 1 U) (toTopo_physical _) rfl rfl
    rcases chanSet_cases (always := always) (s := ChanState.init c) h .init (exAside B U) (exDraws B 1 U) (exZ B 1 U) with
      ⟨_, e1, -⟩ | ⟨e1, -⟩ | ⟨-, -, los, indoor, ut, mean, std, near, F, hst, hF, hc⟩
    · change (setTopology c (TopoState.init c) _ _).2 = _ at e1
      rw [this] at e1; cases e1
    · change (setTopology c (TopoState.init c) _ _).2 = _ at e1
      rw [this] at e1; cases e1
    · rcases hc with ⟨G, hG, mask, -, e2⟩ | ⟨hG, e2⟩
      · rw [e2]
      · rw [e2] at e; cases e

/-- The hypotheses of the theorem are met: two examples with three UTs, turned by different angles; a channel can be generated. -/
example (h : mkScenario cls sa = .ok c) : ∃ (log : List (ChanEvent 2 1 3)) (s : ChanState 2 1 3) (ψ : Fin 2 → ℝ), log ≠ [] ∧
    ψ 0 ≠ 0 ∧ ψ 1 ≠ ψ 0 ∧ ChanReach c always log s ∧ LogBeside ψ log ∧ ∃ i, callInputs always s (exZ 2 1 3) = .ok i := by
  have r := ChanReach.topology (exAside 2 3) (exDraws 2 1 3) (exZ 2 1 3) (ChanReach.init (c := c) (always := always))
  obtain ⟨e, ap⟩ := exAside_ok h always 2 3
  rw [e] at r
  refine ⟨_, _, ![1, 2], by simp, by simp, by simp, r, ?_,
    (C18_generation_possible_partial h rfl r ap _).2 ⟨_, List.mem_cons_self, trivial⟩⟩
  intro a d z x a' d' z' x' hm hm' p q hp hq b n u
  rw [List.mem_singleton] at hm hm'
  injection hm with hm
  injection hm' with hm'
  subst hm hm'
  cases hp
  cases hq
  right; right
  norm_num

/-- A turn by a quarter exchanges the directions of the axes and adds 90 degrees to the azimuths. -/
example : turned (π / 2) ⟨1, 0, 5⟩ = ⟨0, 1, 5⟩ ∧ (turnedAngles (π / 2) ⟨10, 190, 20, 30⟩).aod = 100 := by
  constructor
  · simp [turned]
  · have e : rad2deg (π / 2) = 90 := by simp only [rad2deg]; have := Real.pi_ne_zero; field_simp; norm_num
    simp only [turnedAngles, e, wrapAngle0_360, fmod]
    rw [show (⌊((10 : ℝ) + 90) / 360⌋ : ℤ) = 0 by rw [Int.floor_eq_iff]; norm_num]
    norm_num

end OpenNTN
