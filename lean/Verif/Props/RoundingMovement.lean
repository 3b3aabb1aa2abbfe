import Verif.Model.RoundingMovement
import Verif.Props.RoundingRays

/-
Factor of movement with rounding: C224.
-/
namespace OpenNTN

open Spec

/-- With exact operations the factor is the one of the model. -/
theorem C224_model (tensor : Bool) (g : CoeffGen) (l : LinkTopo) (aoa zoa aod zod t : ℝ) :
    dopplerTerm g l aoa zoa aod zod t =
      Arith.exact.dopplerTerm TrigLib.exact (fun x => Complex.exp (Complex.I * (x : ℂ))) tensor g.fc l.movingRx l.velocity l.satSpeed (decide (600000 ≤ l.bsHeight ∧ l.doppler = true)) aoa zoa aod zod t := by
  have hs (theta phi : ℝ) : Arith.exact.radialSpeed TrigLib.exact theta phi l.velocity = ∑ k, unitSphere theta phi k * l.velocity k := by
    rw [Fin.sum_univ_three]; rfl
  rw [dopplerTerm, C148_model tensor, Arith.dopplerTerm, hs, hs]
  cases l.movingRx <;> rfl

section

variable {f : Format} (hf : IEEE f) {A : Arith} (hr : Nearest f A.rnd)

include hf hr

/-- Speed towards a direction. -/
theorem C224_speed {T : TrigLib} (hT : AccurateTrig T) {theta phi V : ℝ} {v : Fin 3 → ℝ} (t1 : |theta| ≤ 10) (p1 : |phi| ≤ 10) (hv : ∀ k, |v k| ≤ V) (V1 : 1 / 10 ^ 6 ≤ V) (V2 : V ≤ 300) :
    |A.radialSpeed T theta phi v - sphereDirection theta phi ⬝ᵥ v| ≤ 1.6e-6 * V ∧ |sphereDirection theta phi ⬝ᵥ v| ≤ 3 * V := by
  have sum := dot_near hf hr (a := 3.1e-7) (b := 0) (c := 1.6e-6) (m := 1) (x' := A.unitSphere T theta phi) (x := unitSphere theta phi) (y' := v) (y := v) (B := V)
      (fun j => unitSphere_near hf hr hT t1 p1 j) (by simp) (by simpa using hv) (by norm_num) (by norm_num) (by norm_num) (by norm_num) (by norm_num) V1 (V2.trans (by norm_num)) (by norm_num)
  have e1 : sphereDirection theta phi ⬝ᵥ v = unitSphere theta phi 0 * v 0 + unitSphere theta phi 1 * v 1 + unitSphere theta phi 2 * v 2 := by
    simp only [dotProduct, Fin.sum_univ_three]
    rfl
  rw [e1]
  refine ⟨sum, ?_⟩
  have h (j : Fin 3) : |unitSphere theta phi j * v j| ≤ V := by
    rw [abs_mul]
    calc _ ≤ 1 * V := mul_le_mul (unitSphere_near hf hr hT t1 p1 j).2 (hv j) (abs_nonneg _) (by norm_num)
      _ = V := one_mul V
  refine (abs_add_le _ _).trans ?_
  have := abs_add_le (unitSphere theta phi 0 * v 0) (unitSphere theta phi 1 * v 1)
  linarith [h 0, h 1, h 2]

/-- Factor of movement: the error grows with the rotation `R` since the first sample, 1.5e-6 for each radian. -/
theorem C224_factor (hp : Nearest double A.py) {T : TrigLib} (hT : AccurateTrig T) {E : ℝ → ℂ} (hE : AccurateCis E) (tensor : Bool) (g : CoeffGen) (l : LinkTopo) {aoa zoa aod zod fs V R : ℝ} {n : ℕ}
    (f1 : 10 ^ 8 ≤ g.fc) (f2 : g.fc ≤ 10 ^ 11) (a1 : |aoa| ≤ 10) (a2 : |aod| ≤ 10) (z1 : |zoa| ≤ 10) (z2 : |zod| ≤ 10) (hv : ∀ k, |l.velocity k| ≤ V) (V1 : 1 / 10 ^ 6 ≤ V) (V2 : V ≤ 300)
    (hs : |l.satSpeed| ≤ 8000) (fs1 : 1 ≤ fs) (fs2 : fs ≤ 10 ^ 11) (hn : n ≤ 2 ^ 24) (ht : n / fs ≤ 10)
    (hR : 2 * Real.pi * g.fc / 299792458 * (3 * V + if 600000 ≤ l.bsHeight ∧ l.doppler = true then |l.satSpeed| else 0) * (n / fs) ≤ R) (R1 : R ≤ 9000) :
    Close (1.5e-6 * R + 5e-7) 1
      (A.dopplerTerm T E tensor g.fc l.movingRx l.velocity l.satSpeed (decide (600000 ≤ l.bsHeight ∧ l.doppler = true)) aoa zoa aod zod (A.sampleTime fs n))
      (dopplerTerm g l aoa zoa aod zod (n / fs)) := by
  refine ⟨(factors_unit g l aoa aod zoa zod 0 0 (n / fs)).2.le, ?_⟩
  have f0 : 0 < g.fc := lt_of_lt_of_le (by norm_num) f1
  have V0 : 0 < V := lt_of_lt_of_le (by norm_num) V1
  have T0 : 0 ≤ (n : ℝ) / fs := by positivity
  have Q0 : 0 ≤ 2 * Real.pi * g.fc / 299792458 := by positivity
  set sat : Bool := decide (600000 ≤ l.bsHeight ∧ l.doppler = true) with hsat
  have sp : ∃ s' s : ℝ, |s' - s| ≤ 1.6e-6 * V ∧ |s| ≤ 3 * V ∧ (if l.movingRx then A.radialSpeed T zoa aoa l.velocity else A.radialSpeed T zod aod l.velocity) = s' ∧
      ∑ k, (if l.movingRx then unitSphere zoa aoa else unitSphere zod aod) k * l.velocity k = s := by
    cases l.movingRx
    · obtain ⟨a, b⟩ := C224_speed hf hr hT z2 a2 hv V1 V2
      exact ⟨_, _, a, b, rfl, rfl⟩
    · obtain ⟨a, b⟩ := C224_speed hf hr hT z1 a1 hv V1 V2
      exact ⟨_, _, a, b, rfl, rfl⟩
  obtain ⟨s', s, e1, e2, h1, h2⟩ := sp
  have n1 := near_of e1 e2
  have ph := (C148_phase_partial f hf A hr hp tensor g.fc s' l.satSpeed fs n sat f1 f2 (n1.trans (by norm_num at *; linarith)) hs fs1 fs2 hn ht).1
  have ex : dopplerExponent g l aoa zoa aod zod (n / fs) = Spec.dopplerPhase g.fc s l.satSpeed (n / fs) sat := by
    simp only [dopplerExponent, h2, Spec.dopplerPhase, CoeffGen.lambda0, speedOfLight, hsat]
    by_cases h : 600000 ≤ l.bsHeight ∧ l.doppler = true
    · simp only [h, and_self, decide_true, if_true]; field_simp
    · rw [if_neg h, decide_eq_false h]
      simp only [Bool.false_eq_true, if_false, add_zero]; field_simp
  have hif : (if sat then |l.satSpeed| else 0) = if 600000 ≤ l.bsHeight ∧ l.doppler = true then |l.satSpeed| else 0 := by
    simp [hsat]
  rw [← hif] at hR
  have df : Spec.dopplerPhase g.fc s' l.satSpeed (n / fs) sat - Spec.dopplerPhase g.fc s l.satSpeed (n / fs) sat = 2 * Real.pi * g.fc / 299792458 * (n / fs) * (s' - s) := by
    unfold Spec.dopplerPhase; ring
  have size : |Spec.dopplerPhase g.fc s l.satSpeed (n / fs) sat| ≤ 2 * Real.pi * g.fc / 299792458 * (n / fs) * (3 * V + if sat then |l.satSpeed| else 0) := by
    have : Spec.dopplerPhase g.fc s l.satSpeed (n / fs) sat = 2 * Real.pi * g.fc / 299792458 * (n / fs) * (s + if sat then l.satSpeed else 0) := by
      unfold Spec.dopplerPhase; ring
    rw [this, abs_mul, abs_of_nonneg (by positivity)]
    refine mul_le_mul_of_nonneg_left ((abs_add_le _ _).trans (add_le_add e2 ?_)) (by positivity)
    cases sat <;> simp
  rw [Arith.dopplerTerm, h1, dopplerTerm, ex]
  have u := unit_le hf
  have uu : (2 : ℝ) ^ (-(f.digits : ℤ)) ≤ 1 / 16777216 := u
  have w0 : 0 ≤ (if sat then |l.satSpeed| else 0 : ℝ) := by cases sat <;> simp
  generalize (if sat then |l.satSpeed| else 0 : ℝ) = w at *
  generalize A.dopplerExponent tensor g.fc s' l.satSpeed (A.sampleTime fs n) sat = X at *
  generalize Spec.dopplerPhase g.fc s l.satSpeed (n / fs) sat = D at *
  generalize Spec.dopplerPhase g.fc s' l.satSpeed (n / fs) sat = D' at *
  have G0 : 0 ≤ 2 * Real.pi * g.fc / 299792458 * (n / fs) := by positivity
  have hR' : 2 * Real.pi * g.fc / 299792458 * (n / fs) * (3 * V + w) ≤ R := by linarith
  have ph' : |X - D'| ≤ 14 * (2 : ℝ) ^ (-(f.digits : ℤ)) * (2 * Real.pi * g.fc / 299792458 * (n / fs) * (|s'| + w)) + 1 / 10 ^ 29 := by
    refine ph.trans (le_of_eq ?_); ring
  generalize 2 * Real.pi * g.fc / 299792458 * (n / fs) = G at *
  have gw : 0 ≤ G * w := mul_nonneg G0 w0
  have gv : 0 ≤ G * V := mul_nonneg G0 V0.le
  have b1 : G * (|s'| + w) ≤ 1.00001 * R := by
    have := mul_le_mul_of_nonneg_left n1 G0
    rw [mul_add] at this hR' ⊢
    norm_num at *; nlinarith
  have b1' : 0 ≤ G * (|s'| + w) := mul_nonneg G0 (add_nonneg (abs_nonneg _) w0)
  have b2 : |D' - D| ≤ 5.4e-7 * R := by
    rw [df, abs_mul, abs_of_nonneg G0]
    refine (mul_le_mul_of_nonneg_left e1 G0).trans ?_
    rw [mul_add] at hR'
    norm_num at *; nlinarith
  have b3 : |X - D'| ≤ 8.4e-7 * R + 1 / 10 ^ 29 := by
    refine ph'.trans ?_
    have := mul_le_mul uu b1 b1' (by norm_num)
    rw [mul_assoc]
    norm_num at *; linarith
  have R0 : 0 ≤ R := by rw [mul_add] at hR'; linarith
  have b4 := tri_of b3 b2
  have b5 := near_of b4 (size.trans hR')
  have c1 := hE X (b5.trans (by norm_num at *; linarith))
  have c2 := cis_sub X D
  rw [mul_one, mul_comm Complex.I]
  refine (norm_sub_le_norm_sub_add_norm_sub _ _ _).trans ((add_le_add c1 (c2.trans b4)).trans ?_)
  norm_num at *; linarith

/-- Contribution of a ray with the factors of array and movement as they are computed: only the errors of the field components are given. -/
theorem C224_ray (hp : Nearest double A.py) {T : TrigLib} (hT : AccurateTrig T) {E : ℝ → ℂ} (hE : AccurateCis E) (tensor : Bool) {M : ℕ} (g : CoeffGen) (l : LinkTopo) (r : LinkRays M)
    (phi : Fin M → Fin raysPerCluster → Fin 4 → ℝ) (c : Fin M) (m : Fin raysPerCluster) (u s : ℕ) {K Ft Fr S ef W fs V R : ℝ} {n : ℕ} {tx rx : Fin 2 → ℝ}
    (f1 : 10 ^ 9 ≤ g.fc) (f2 : g.fc ≤ 10 ^ 11) (hphi : ∀ k, |phi c m k| ≤ 10) (x1 : 1 / 10 ^ 12 ≤ r.xpr c m) (x2 : r.xpr c m ≤ 10 ^ 12)
    (hK : Real.sqrt (1 / r.xpr c m) ≤ K) (K1 : 1 ≤ K) (K2 : K ≤ 1000) (p1 : r.powers c = 0 ∨ 1 / 10 ^ 20 ≤ r.powers c) (hS : Real.sqrt (r.powers c / 20) ≤ S)
    (S1 : 1 / 10 ^ 10 ≤ S) (S2 : S ≤ 10 ^ 3) (Ft1 : 1 / 10 ^ 3 ≤ Ft) (Ft2 : Ft ≤ 10 ^ 3) (Fr1 : 1 / 10 ^ 3 ≤ Fr) (Fr2 : Fr ≤ 10 ^ 3) (ef0 : 0 ≤ ef) (ef1 : ef ≤ 1 / 100)
    (htx : ∀ k, |fieldVector g.tx l.txOri (r.zod c m) (r.aod c m) s k| ≤ Ft ∧ |tx k - fieldVector g.tx l.txOri (r.zod c m) (r.aod c m) s k| ≤ ef * Ft)
    (hrx : ∀ k, |fieldVector g.rx l.rxOri (r.zoa c m) (r.aoa c m) u k| ≤ Fr ∧ |rx k - fieldVector g.rx l.rxOri (r.zoa c m) (r.aoa c m) u k| ≤ ef * Fr)
    (o1 : ∀ k, |l.rxOri k| ≤ 10) (o2 : ∀ k, |l.txOri k| ≤ 10) (d1 : ∀ k, |g.rx.antPos u k| ≤ W * (299792458 / g.fc)) (d2 : ∀ k, |g.tx.antPos s k| ≤ W * (299792458 / g.fc))
    (W1 : 1 / 20 ≤ W) (W2 : W ≤ 33) (a1 : |r.aoa c m| ≤ 10) (a2 : |r.aod c m| ≤ 10) (z1 : |r.zoa c m| ≤ 10) (z2 : |r.zod c m| ≤ 10) (hv : ∀ k, |l.velocity k| ≤ V) (V1 : 1 / 10 ^ 6 ≤ V) (V2 : V ≤ 300)
    (hs : |l.satSpeed| ≤ 8000) (fs1 : 1 ≤ fs) (fs2 : fs ≤ 10 ^ 11) (hn : n ≤ 2 ^ 24) (ht : n / fs ≤ 10)
    (hR : 2 * Real.pi * g.fc / 299792458 * (3 * V + if 600000 ≤ l.bsHeight ∧ l.doppler = true then |l.satSpeed| else 0) * (n / fs) ≤ R) (R1 : R ≤ 6000) :
    Close (9e-6 + 2.2 * ef + 3.3e-4 * W + 1.7e-6 * R) (8 * (K * Ft * Fr) * S) (A.nlosRay T E (decide (600000 ≤ l.bsHeight)) g.fc (phi c m) (r.xpr c m) (r.powers c) tx rx
        (A.arrayOffset T E tensor g.fc l.rxOri (g.rx.antPos u) l.txOri (g.tx.antPos s) (r.aoa c m) (r.aod c m) (r.zoa c m) (r.zod c m))
        (A.dopplerTerm T E tensor g.fc l.movingRx l.velocity l.satSpeed (decide (600000 ≤ l.bsHeight ∧ l.doppler = true)) (r.aoa c m) (r.zoa c m) (r.aod c m) (r.zod c m) (A.sampleTime fs n)))
      (nlosRay g l r phi c m u s (n / fs)) := by
  have f1' : 10 ^ 8 ≤ g.fc := le_trans (by norm_num) f1
  have V0 : 0 < V := lt_of_lt_of_le (by norm_num) V1
  have R0 : 0 ≤ R := by
    refine le_trans ?_ hR
    have : 0 ≤ (if 600000 ≤ l.bsHeight ∧ l.doppler = true then |l.satSpeed| else 0) := by split_ifs <;> simp
    have : 0 < g.fc := lt_of_lt_of_le (by norm_num) f1
    positivity
  have ha := C223_array hf hr hp hT hE tensor g l u s f1' f2 o1 o2 d1 d2 W1 (W2.trans (by norm_num)) a1 a2 z1 z2
  have hd := C224_factor hf hr hp hT hE tensor g l f1' f2 a1 a2 z1 z2 hv V1 V2 hs fs1 fs2 hn ht hR (R1.trans (by norm_num))
  have W0 : 0 ≤ W := le_trans (by norm_num) W1
  have h := C223_ray hf hr hT hE hp g l r phi c m u s (n / fs) f1 f2 hphi x1 x2 hK K1 K2 p1 hS S1 S2 Ft1 Ft2 Fr1 Fr2 ef0 ef1 (by positivity) (by norm_num at *; linarith) (by positivity) (by norm_num at *; linarith)
    htx hrx ha hd
  refine h.mono ?_ le_rfl (by positivity)
  norm_num at *; linarith

end

/-- A link at 2 GHz with a satellite of 7 km/s, a terminal that moves with up to 30 m/s in each direction, and the hundredth sample at 100 kHz. -/
example : ∃ (A : Arith) (arr : PanelArray), Nearest Spec.single A.rnd ∧ mkAntenna "single" "V" "omni" 2e9 = .ok arr ∧
    let l := { exSatLink 30 0 with velocity := ![30, -20, 0], satSpeed := 7000 }
    Close (1.5e-6 * 310 + 5e-7) 1
      (A.dopplerTerm TrigLib.exact (fun x => Complex.exp (x * Complex.I)) true 2e9 l.movingRx l.velocity 7000 (decide (600000 ≤ l.bsHeight ∧ l.doppler = true)) 0 1 0 2 (A.sampleTime 100000 100))
      (dopplerTerm ⟨2e9, arr, arr⟩ l 0 1 0 2 ((100 : ℕ) / 100000)) := by
  obtain ⟨A, hr, hp⟩ := exists_arith Spec.single (Or.inl rfl)
  obtain ⟨arr, h, _⟩ := exAntenna_ok
  refine ⟨A, arr, hr, h, ?_⟩
  intro l
  refine C224_factor (Or.inl rfl) hr hp exact_accurate.1 exact_accurate.2 true ⟨2e9, arr, arr⟩ l (V := 30) (by norm_num) (by norm_num) (by norm_num) (by norm_num) (by norm_num) (by norm_num) (fun k => ?_)
    (by norm_num) (by norm_num) (by norm_num [l]) (by norm_num) (by norm_num) (by norm_num) (by norm_num) ?_ (by norm_num)
  · fin_cases k <;> norm_num [l]
  · have pb := Real.pi_lt_d4
    have w1 : (if 600000 ≤ l.bsHeight ∧ l.doppler = true then |l.satSpeed| else 0) ≤ 7000 := by
      split_ifs <;> norm_num [l]
    have w0 : 0 ≤ (if 600000 ≤ l.bsHeight ∧ l.doppler = true then |l.satSpeed| else 0) := by
      split_ifs <;> norm_num [l]
    generalize (if 600000 ≤ l.bsHeight ∧ l.doppler = true then |l.satSpeed| else 0 : ℝ) = w at w0 w1 ⊢
    have q : 2 * Real.pi * 2e9 / 299792458 ≤ 42 := by rw [div_le_iff₀ (by norm_num)]; norm_num at pb ⊢; linarith
    have m := mul_le_mul q (show 3 * 30 + w ≤ 7090 by linarith) (by linarith) (by norm_num)
    norm_num at m ⊢; linarith

/-- A ray of a cluster with half of the power on that link, at the first sample, with field components that have errors of up to `1e-4`. -/
example : ∃ (A : Arith) (arr : PanelArray), Nearest Spec.single A.rnd ∧ mkAntenna "single" "V" "omni" 2e9 = .ok arr ∧
    let r : LinkRays 1 := ⟨fun _ => 0, fun _ => 1 / 2, fun _ _ => 0, fun _ _ => 0, fun _ _ => 1, fun _ _ => 2, fun _ _ => 10⟩
    let g : CoeffGen := ⟨2e9, arr, arr⟩
    let l := { exSatLink 30 0 with velocity := ![30, -20, 0], satSpeed := 7000 }
    let E : ℝ → ℂ := fun x => Complex.exp (x * Complex.I)
    ‖A.nlosRay TrigLib.exact E (decide (600000 ≤ l.bsHeight)) g.fc (fun _ => 1) (r.xpr 0 0) (r.powers 0)
        (fun k => fieldVector arr l.txOri 2 0 0 k + 1e-4) (fun k => fieldVector arr l.rxOri 1 0 0 k + 1e-4) (A.arrayOffset TrigLib.exact E true g.fc l.rxOri (arr.antPos 0) l.txOri (arr.antPos 0) 0 0 1 2)
        (A.dopplerTerm TrigLib.exact E true g.fc l.movingRx l.velocity l.satSpeed (decide (600000 ≤ l.bsHeight ∧ l.doppler = true)) 0 1 0 2 (A.sampleTime 100000 0)) -
      nlosRay g l r (fun _ _ _ => 1) 0 0 0 0 ((0 : ℕ) / 100000)‖ ≤ (9e-6 + 2.2 * 1e-4 + 3.3e-4 * (1 / 20) + 1.7e-6 * 0) * (8 * (1 * 1 * 1) * 1) := by
  obtain ⟨A, hr, hp⟩ := exists_arith Spec.single (Or.inl rfl)
  obtain ⟨arr, h, _, ha, _⟩ := exAntenna_ok
  refine ⟨A, arr, hr, h, ?_⟩
  intro r g l E
  have p0 : arr.antPos 0 = 0 := ha.1.symm
  have b (k : Fin 3) : |arr.antPos 0 k| ≤ 1 / 20 * (299792458 / 2e9) := by rw [p0]; simp; norm_num
  have root {x : ℝ} (hx : x ≤ 1) : Real.sqrt x ≤ 1 := Real.sqrt_le_one.2 hx
  have fc (o : Fin 3 → ℝ) (θ : ℝ) (k : Fin 2) : |fieldVector arr o θ 0 0 k| ≤ 1 ∧ |fieldVector arr o θ 0 0 k + 1e-4 - fieldVector arr o θ 0 0 k| ≤ 1e-4 * 1 :=
    ⟨field_component_le h (by norm_num) (by simp [Spec.maxGain]) o θ 0 0 k, by rw [add_sub_cancel_left]; norm_num⟩
  refine (C224_ray (Or.inl rfl) hr hp exact_accurate.1 exact_accurate.2 true g l r (fun _ _ _ => 1) 0 0 0 0 (K := 1) (Ft := 1) (Fr := 1) (S := 1) (ef := 1e-4) (W := 1 / 20) (V := 30) (R := 0) (n := 0)
    (tx := fun k => fieldVector arr l.txOri 2 0 0 k + 1e-4) (rx := fun k => fieldVector arr l.rxOri 1 0 0 k + 1e-4) (by norm_num [g]) (by norm_num [g]) (by norm_num) (by norm_num [r]) (by norm_num [r])
    (root (by norm_num [r])) le_rfl (by norm_num) (Or.inr (by norm_num [r])) (root (by norm_num [r])) (by norm_num) (by norm_num) (by norm_num) (by norm_num) (by norm_num) (by norm_num) (by norm_num) (by norm_num)
    (fun k => fc _ _ k) (fun k => fc _ _ k) (by simp [l, exSatLink]) (by simp [l, exSatLink]) b b le_rfl (by norm_num) (by norm_num [r]) (by norm_num [r]) (by norm_num [r]) (by norm_num [r])
    (fun k => by fin_cases k <;> norm_num [l]) (by norm_num) (by norm_num) (by norm_num [l]) (by norm_num) (by norm_num) (by norm_num) (by norm_num) (by simp) (by norm_num)).2

end OpenNTN
