import Verif.Props.RoundingOfdm

/-
From rays and LoS path with errors to the frequency response of a link, every operation rounded: C230.
-/
namespace OpenNTN

open Spec

/-- Exchanging paths, coefficients with their delays, changes the response by the LoS component only, which stays with the first path. -/
theorem response_reorder {p : ℕ} (los : Bool) {k : ℝ} (k0 : 0 ≤ k) (a : ℂ) (h : Fin (p + 1) → ℂ) (tau : Fin (p + 1) → ℝ) (σ : Equiv.Perm (Fin (p + 1))) {G : ℝ} (G0 : 0 ≤ G) (freq : ℝ) (u s : ℕ) (t : ℝ) :
    ‖exactResponse (fun q => combineLos los k (fun _ _ _ => a) (fun q _ _ _ => h (σ q)) q u s t * (G : ℂ)) (fun q => tau (σ q)) freq -
      exactResponse (fun q => combineLos los k (fun _ _ _ => a) (fun q _ _ _ => h q) q u s t * (G : ℂ)) tau freq‖ ≤ ‖a‖ * G * (2 * Real.pi * |freq| * |tau (σ 0) - tau 0|) := by
  unfold exactResponse
  simp only [combineLos_apply]
  cases los
  · simp only [Bool.false_eq_true, if_false]
    rw [Equiv.sum_comp σ fun q => h q * (G : ℂ) * Complex.exp (Complex.I * ((-(2 * Real.pi * freq * tau q) : ℝ) : ℂ)), sub_self, norm_zero]
    have := Real.pi_pos
    positivity
  · simp only [if_true, add_mul, Finset.sum_add_distrib, ite_mul, zero_mul, Finset.sum_ite_eq', Finset.mem_univ]
    rw [Equiv.sum_comp σ fun q => h q * ((Real.sqrt (1 / (k + 1)) : ℝ) : ℂ) * (G : ℂ) * Complex.exp (Complex.I * ((-(2 * Real.pi * freq * tau q) : ℝ) : ℂ)), add_sub_add_right_eq_sub, ← mul_sub, norm_mul, norm_mul, norm_mul,
      Complex.norm_real, Complex.norm_real, Real.norm_eq_abs, Real.norm_eq_abs, abs_of_nonneg G0, abs_of_nonneg (Real.sqrt_nonneg _)]
    have r : Real.sqrt (k / (k + 1)) ≤ 1 := Real.sqrt_le_one.2 ((div_le_one (by linarith)).2 (by linarith))
    have c := circle_dist_le (-(2 * Real.pi * freq * tau (σ 0))) (-(2 * Real.pi * freq * tau 0))
    rw [show -(2 * Real.pi * freq * tau (σ 0)) - -(2 * Real.pi * freq * tau 0) = -(2 * Real.pi * freq * (tau (σ 0) - tau 0)) by ring, abs_neg, abs_mul, abs_mul,
      abs_of_pos (by have := Real.pi_pos; positivity : 0 < 2 * Real.pi)] at c
    refine mul_le_mul ?_ c (norm_nonneg _) (by positivity)
    have := norm_nonneg a
    calc ‖a‖ * Real.sqrt (k / (k + 1)) * G ≤ ‖a‖ * 1 * G := by gcongr
      _ = ‖a‖ * G := by ring

/-- A combined coefficient is at most the sum of the bounds of its parts. -/
theorem combined_bound {p : ℕ} (los : Bool) {k : ℝ} (k0 : 0 ≤ k) {a : ℂ} {h : Fin (p + 1) → ℂ} {B C : ℝ} (ha : ‖a‖ ≤ C) (hh : ∀ q, ‖h q‖ ≤ B) (q : Fin (p + 1)) (u s : ℕ) (t : ℝ) :
    ‖combineLos los k (fun _ _ _ => a) (fun q _ _ _ => h q) q u s t‖ ≤ C + B := by
  have r1 : Real.sqrt (k / (k + 1)) ≤ 1 := Real.sqrt_le_one.2 ((div_le_one (by linarith)).2 (by linarith))
  have r2 : Real.sqrt (1 / (k + 1)) ≤ 1 := Real.sqrt_le_one.2 ((div_le_one (by linarith)).2 (by linarith))
  have C0 := (norm_nonneg _).trans ha
  have x1 : ‖a * ((Real.sqrt (k / (k + 1)) : ℝ) : ℂ)‖ ≤ C := by
    rw [norm_mul, Complex.norm_real, Real.norm_eq_abs, abs_of_nonneg (Real.sqrt_nonneg _)]
    exact (mul_le_of_le_one_right (norm_nonneg _) r1).trans ha
  have x2 : ‖h q * ((Real.sqrt (1 / (k + 1)) : ℝ) : ℂ)‖ ≤ B := by
    rw [norm_mul, Complex.norm_real, Real.norm_eq_abs, abs_of_nonneg (Real.sqrt_nonneg _)]
    exact (mul_le_of_le_one_right (norm_nonneg _) r2).trans (hh q)
  rw [combineLos_apply]
  split_ifs
  · exact (norm_add_le _ _).trans (add_le_add x1 x2)
  · rw [zero_add]; linarith
  · linarith [hh q]

section

variable {f : Format} (hf : IEEE f) {A : Arith} (hr : Nearest f A.rnd)

include hf hr

theorem rnd_between {x : ℝ} (x0 : 0 ≤ x) (x1 : x ≤ 10 ^ 20) : 0 ≤ A.rnd x ∧ A.rnd x ≤ 1.1 * x + 1 := by
  refine ⟨rnd_nonneg hf hr (x1.trans (by norm_num)) x0, ?_⟩
  have := (abs_le.1 (rnd_small hf hr (x := x) (by rw [abs_of_nonneg x0]; exact x1.trans (by norm_num)))).2
  rw [abs_of_nonneg x0] at this
  norm_num at *; linarith

/-- Delays of paths are not negative. -/
theorem path_delay_nonneg (hp : Nearest double A.py) {n : ℕ} (powers : Fin (n + 2) → ℝ) {delays : Fin (n + 2) → ℝ} (hD : ∀ c, 0 ≤ delays c ∧ delays c ≤ 1) {ns : ℝ} (n0 : 0 ≤ ns) (n1 : ns ≤ 10 ^ 6)
    (k : Fin (n + 6)) : 0 ≤ A.pathDelays powers delays (A.clusterDelaySpread ns) k := by
  have py (x : ℝ) (x0 : 0 ≤ x) (x1 : x ≤ 3) : 0 ≤ A.rnd (A.py x) ∧ A.rnd (A.py x) ≤ 4 := by
    have a : 0 ≤ A.py x := rnd_nonneg (Or.inr rfl) hp (x1.trans (by norm_num)) x0
    have b := abs_le.1 (const_err hf hr hp (x := x) (by rw [abs_of_nonneg x0]; exact x1.trans (by norm_num)))
    have c : A.py x ≤ 10 ^ 20 := by
      have := (abs_le.1 (rnd_small (Or.inr rfl) (A := { A with rnd := A.py }) hp (x := x) (by rw [abs_of_nonneg x0]; exact x1.trans (by norm_num)))).2
      rw [abs_of_nonneg x0] at this
      norm_num at *; linarith
    refine ⟨(rnd_between hf hr a c).1, ?_⟩
    have := b.2
    rw [abs_of_nonneg x0] at this
    norm_num at *; linarith
  have u := py 1e-9 (by norm_num) (by norm_num)
  have cb : ns * A.rnd (A.py 1e-9) ≤ 10 ^ 6 * 4 := mul_le_mul n1 u.2 u.1 (by norm_num)
  have c := rnd_between hf hr (mul_nonneg n0 u.1) (cb.trans (by norm_num))
  have c' : 0 ≤ A.clusterDelaySpread ns ∧ A.clusterDelaySpread ns ≤ 10 ^ 7 := ⟨c.1, c.2.trans (by norm_num at *; linarith)⟩
  unfold Arith.pathDelays
  extract_lets st
  split_ifs with hk
  · have o : 0 ≤ subClDelayOffsets ⟨k.1 / 2, by omega⟩ ∧ subClDelayOffsets ⟨k.1 / 2, by omega⟩ ≤ 3 := by
      generalize (⟨k.1 / 2, by omega⟩ : Fin 3) = i
      fin_cases i <;> norm_num [subClDelayOffsets]
    have x := py _ o.1 o.2
    have m : A.rnd (A.py (subClDelayOffsets ⟨k.1 / 2, by omega⟩)) * A.clusterDelaySpread ns ≤ 4 * 10 ^ 7 := mul_le_mul x.2 c'.2 c'.1 (by norm_num)
    have y := rnd_between hf hr (mul_nonneg x.1 c'.1) (m.trans (by norm_num))
    have dl := hD (st ⟨k.1 % 2, by omega⟩)
    exact (rnd_between hf hr (add_nonneg dl.1 y.1) ((add_le_add dl.2 y.2).trans (by norm_num at *; linarith))).1
  · exact (hD _).1

/-- Frequency response of a pair of antennas at a time: `e` is the error of the rays and of the LoS path. Paths that rounding exchanges do not matter. -/
theorem C230_response (hp : Nearest double A.py) {L : ComplexLib} (hL : AccurateComplex L) {P : ℝ → ℝ} (hP : AccuratePowWide P) {E : ℝ → ℂ} (hE : AccurateCis E) {n : ℕ} (nn : n + 6 ≤ 20)
    (g : CoeffGen) (l : LinkTopo) {k : ℝ} (k0 : 0 ≤ k) (k1 : k ≤ 10 ^ 12) (r : LinkRays (n + 2)) (phi : Fin (n + 2) → Fin raysPerCluster → Fin 4 → ℝ) (u s : ℕ) (t : ℝ)
    {D ns e B C : ℝ} (h0 : ∀ c, 0 ≤ r.delays c) (hD : ∀ c, |r.delays c| ≤ D) (D2 : D ≤ 1) (n0 : 0 ≤ ns) (n1 : ns ≤ 10 ^ 6)
    {z' : Fin (n + 2) → Fin raysPerCluster → ℂ} {a' : ℂ} (hz : ∀ c m, Close e B (z' c m) (nlosRay g l r phi c m u s t)) (ha : Close e C a' (losCoeff g l u s t))
    (e0 : 0 ≤ e) (e1 : e ≤ 4 / 100) (b1 : 1 / 10 ^ 25 ≤ B) (b2 : B ≤ 5000) (c2 : C ≤ 10 ^ 5) (pe se : Bool) {pl sf : ℝ} (l0 : 0 ≤ pl) (l1 : pl ≤ 400) (s0 : 1e-8 ≤ sf) (s1 : sf ≤ 1e8)
    (lo : 1e-24 ≤ (C + 20 * B) * step12Gain pe se pl sf)
    {h : Fin (n + 6) → ℂ} {d : Fin (n + 6) → ℝ} (hh : A.IsReduced r.powers r.delays z' (A.clusterDelaySpread ns) h d)
    {j : ℤ} {spacing R q : ℝ} (f1 : 1 ≤ spacing) (f2 : |j * spacing| ≤ 10 ^ 9) (d1 : ∀ p, d p ≤ 1) (hR : ∀ p, 2 * Real.pi * |j * spacing| * d p ≤ R) (R1 : R ≤ 9000)
    (hq : 2 * Real.pi * |j * spacing| * (3 * (5e-7 * (D + 2.56e-9 * ns) + 2e-37)) ≤ q) (q1 : q ≤ 3 / 100) {y : ℂ}
    (hy : A.IsResponse E j spacing (fun p => A.step12 P pe se pl sf (A.combineLos L l.los k a' h p)) d y) :
    ‖y - exactResponse (fun p => (coeffCall g l k r (ns * 1e-9) phi).1 p u s t * (step12Gain pe se pl sf : ℂ)) (coeffCall g l k r (ns * 1e-9) phi).2 (j * spacing)‖ ≤
      (e + 2.1 * q + 1e-6 * R + 3.5e-5) * ((n + 6) * ((C + 20 * B) * step12Gain pe se pl sf)) := by
  have pp := Real.pi_pos
  have d0 : ∀ p, 0 ≤ d p ∧ d p ≤ 1 := fun p => ⟨by
    rw [(hh p).1]
    exact path_delay_nonneg hf hr hp r.powers (fun c => ⟨h0 c, (le_abs_self _).trans ((hD c).trans D2)⟩) n0 n1 _, d1 p⟩
  have B0 : 0 ≤ B := le_trans (by norm_num) b1
  have C0 : 0 ≤ C := (norm_nonneg _).trans ha.1
  have R0 : 0 ≤ R := le_trans (mul_nonneg (by positivity) (d0 0).1) (hR 0)
  have D0 : 0 ≤ D := (abs_nonneg _).trans (hD 0)
  have q0 : 0 ≤ q := le_trans (by positivity) hq
  obtain ⟨_, σ, hσ⟩ := C226_link hf hr hp hL hP g l k0 k1 r phi u s t hD D2 n0 n1 hz ha e0 (e1.trans (by norm_num)) b1 b2 c2 pe se l0 l1 s0 s1 hh
  obtain ⟨_, σ', hσ'⟩ := C226_paths hf hr hp r.powers hD D2 n0 n1 hz e0 (e1.trans (by norm_num)) b1 (b2.trans (by norm_num)) hh
  have bound (p) : ‖(reduceNlos r.powers r.delays (fun c m => nlosRay g l r phi c m u s t) (ns * 1e-9)).1 p‖ ≤ 20 * B := by
    have := (hσ' (σ'.symm p)).1.1
    rwa [Equiv.apply_symm_apply] at this
  have g0 : 0 ≤ step12Gain pe se pl sf := by unfold step12Gain pow10; positivity
  have g1 : step12Gain pe se pl sf ≤ 10 ^ 4 := by
    unfold step12Gain
    extract_lets d v
    have a : pow10 (-d / 20) ≤ 1 := by
      refine Real.rpow_le_one_of_one_le_of_nonpos (by norm_num) ?_
      have : 0 ≤ d := by unfold d; split_ifs <;> [exact l0; exact le_rfl]
      linarith
    have b : Real.sqrt v ≤ 10 ^ 4 := by
      rw [Real.sqrt_le_left (by norm_num)]
      unfold v; split_ifs
      · exact s1.trans (by norm_num)
      · norm_num
    exact (mul_le_mul a b (Real.sqrt_nonneg _) (by norm_num)).trans (by norm_num)
  have ex (h' : Fin (n + 6) → Fin (n + 6)) (p) : combineLos l.los k (losCoeff g l) (fun p => (reduceNlos r.powers r.delays (nlosRay g l r phi) (ns * 1e-9)).1 (h' p)) p u s t =
      combineLos l.los k (fun _ _ _ => losCoeff g l u s t) (fun p _ _ _ => (reduceNlos r.powers r.delays (fun c m => nlosRay g l r phi c m u s t) (ns * 1e-9)).1 (h' p)) p u s t := by
    rw [combineLos_apply, combineLos_apply, reduceNlos_coeff]
  have call1 (p) : (coeffCall g l k r (ns * 1e-9) phi).1 p u s t =
      combineLos l.los k (fun _ _ _ => losCoeff g l u s t) (fun p _ _ _ => (reduceNlos r.powers r.delays (fun c m => nlosRay g l r phi c m u s t) (ns * 1e-9)).1 p) p u s t := ex id p
  simp only [call1]
  simp only [ex σ] at hσ
  generalize (coeffCall g l k r (ns * 1e-9) phi).2 = tau at *
  generalize (reduceNlos r.powers r.delays (fun c m => nlosRay g l r phi c m u s t) (ns * 1e-9)).1 = w at *
  have an := ha.1
  generalize losCoeff g l u s t = a at *
  obtain ⟨G, hG⟩ : ∃ G, G = step12Gain pe se pl sf := ⟨_, rfl⟩
  rw [← hG] at lo g0 g1 hσ ⊢
  obtain ⟨M, hM⟩ : ∃ M, M = (C + 20 * B) * G := ⟨_, rfl⟩
  obtain ⟨δ, hδ⟩ : ∃ δ : ℝ, δ = 5e-7 * (D + 2.56e-9 * ns) + 2e-37 := ⟨_, rfl⟩
  rw [← hM] at lo hσ ⊢
  rw [← hδ] at hσ hq
  have M0 : 0 ≤ M := le_trans (by norm_num) lo
  have M1 : M ≤ 10 ^ 25 := by
    rw [hM]
    calc (C + 20 * B) * G ≤ (10 ^ 5 + 20 * 5000) * 10 ^ 4 := by gcongr
      _ ≤ 10 ^ 25 := by norm_num
  have δ0 : 0 ≤ δ := by rw [hδ]; positivity
  have cl (p) : Close (e + 2.8e-5) M (A.step12 P pe se pl sf (A.combineLos L l.los k a' h p)) (combineLos l.los k (fun _ _ _ => a) (fun p _ _ _ => w (σ p)) p u s t * (G : ℂ)) := by
    constructor
    · rw [norm_mul, Complex.norm_real, Real.norm_eq_abs, abs_of_nonneg g0, hM]
      exact mul_le_mul_of_nonneg_right (combined_bound l.los k0 an (fun p => bound (σ p)) p u s t) g0
    · refine (hσ p).1.trans ?_
      rw [add_mul, add_mul]
      norm_num at *; linarith
  have F0 : 0 ≤ 2 * Real.pi * |j * spacing| := by positivity
  have near (p) : 2 * Real.pi * |j * spacing| * |d p - tau (σ p)| ≤ q := by
    refine le_trans (mul_le_mul_of_nonneg_left ?_ F0) hq
    have x := tri_of (hσ p).2.1 (by rw [abs_sub_comm]; exact (hσ p).2.2 : |tau p - tau (σ p)| ≤ 2 * δ)
    linarith
  have c := C228_frequency hf hr hp hE f1 f2 nn cl (by positivity) (by norm_num at *; linarith) (le_trans (by norm_num) lo) M1 d0 hR R1 near q1 hy
  have o := response_reorder l.los k0 a w tau σ g0 (j * spacing) u s t
  have o' : ‖a‖ * G * (2 * Real.pi * |j * spacing| * |tau (σ 0) - tau 0|) ≤ M * q := by
    refine mul_le_mul ?_ ?_ (by positivity) M0
    · rw [hM]
      exact mul_le_mul_of_nonneg_right (by linarith) g0
    · refine le_trans (mul_le_mul_of_nonneg_left ((hσ 0).2.2.trans ?_) F0) hq
      linarith
  refine (norm_sub_le_norm_sub_add_norm_sub _ _ _).trans ((add_le_add c.2 (o.trans o')).trans ?_)
  have N : M ≤ (n + 6) * M := le_mul_of_one_le_left M0 (by have : (0 : ℝ) ≤ n := Nat.cast_nonneg _; linarith)
  have Nq : M * q ≤ q * ((n + 6) * M) := by rw [mul_comm M q]; exact mul_le_mul_of_nonneg_left N q0
  have N0 : 0 ≤ ((n : ℝ) + 6) * M := M0.trans N
  push_cast
  generalize ((n : ℝ) + 6) * M = W at *
  have : 0 ≤ q * W := mul_nonneg q0 N0
  rw [show (e + 2.8e-5 + 1.05 * q + 1e-6 * R + 4e-6) * W = (e + 1e-6 * R) * W + 3.2e-5 * W + 1.05 * (q * W) by norm_num; ring,
    show (e + 2.1 * q + 1e-6 * R + 3.5e-5) * W = (e + 1e-6 * R) * W + 3.5e-5 * W + 2.1 * (q * W) by norm_num; ring]
  norm_num at *; linarith

end

/-- Two clusters with a cluster delay spread of 3.9 ns and a K-factor of 10, seen from a satellite with 165 dB path loss; field components have errors of up to `1e-4`. -/
example : ∃ (A : Arith) (arr : PanelArray), Nearest Spec.single A.rnd ∧ mkAntenna "single" "V" "omni" 2e9 = .ok arr ∧
    let r : LinkRays 2 := ⟨![0, 1e-6], ![1 / 4, 3 / 4], fun _ _ => 0, fun _ _ => 0, fun _ _ => 1, fun _ _ => 2, fun _ _ => 10⟩
    let g : CoeffGen := ⟨2e9, arr, arr⟩
    let l := exSatLink 30 0
    let z' : Fin 2 → Fin raysPerCluster → ℂ := fun c m => A.nlosRay TrigLib.exact (fun x => Complex.exp (x * Complex.I)) (decide (600000 ≤ l.bsHeight)) g.fc (fun _ => 1) (r.xpr c m) (r.powers c)
      (fun k => fieldVector arr l.txOri 2 0 0 k + 1e-4) (fun k => fieldVector arr l.rxOri 1 0 0 k + 1e-4) (arrayOffset g l 0 0 1 2 0 0) (dopplerTerm g l 0 1 0 2 0)
    let a' := A.losCoeff TrigLib.exact (decide (600000 ≤ l.bsHeight)) g.fc (fieldVector arr l.txOri l.losZod l.losAod 0) (fieldVector arr l.rxOri l.losZoa l.losAoa 0)
      (arrayOffset g l l.losAoa l.losAod l.losZoa l.losZod 0 0) (dopplerTerm g l l.losAoa l.losZoa l.losAod l.losZod 0) (Complex.exp (Complex.I * (2 * Real.pi * l.distance3d / g.lambda0 : ℝ)) + 1e-3)
    ∃ h d, A.IsReduced r.powers r.delays z' (A.clusterDelaySpread 3.9) h d ∧
      (∃ y, A.IsResponse (fun x => Complex.exp (x * Complex.I)) 100 30000 (fun p => A.step12 (fun x => (10 : ℝ) ^ x) true true 165 0.25 (A.combineLos ⟨(· / ·), Real.sqrt⟩ l.los 10 a' h p)) d y) ∧
      ∀ y, A.IsResponse (fun x => Complex.exp (x * Complex.I)) 100 30000 (fun p => A.step12 (fun x => (10 : ℝ) ^ x) true true 165 0.25 (A.combineLos ⟨(· / ·), Real.sqrt⟩ l.los 10 a' h p)) d y →
        ‖y - exactResponse (fun p => (coeffCall g l 10 r (3.9 * 1e-9) (fun _ _ _ => 1)).1 p 0 0 0 * (step12Gain true true 165 0.25 : ℂ)) (coeffCall g l 10 r (3.9 * 1e-9) (fun _ _ _ => 1)).2 (100 * 30000)‖ ≤
          3e-3 * (6 * ((8 + 20 * 8) * step12Gain true true 165 0.25)) := by
  obtain ⟨A, hr, hp⟩ := exists_arith Spec.single (Or.inl rfl)
  obtain ⟨arr, ho, _⟩ := exAntenna_ok
  refine ⟨A, arr, hr, ho, ?_⟩
  intro r g l z' a'
  obtain ⟨h, d, hh⟩ := exists_reduced A r.powers r.delays z' (A.clusterDelaySpread 3.9)
  have root {x : ℝ} (hx : x ≤ 1) : Real.sqrt x ≤ 1 := Real.sqrt_le_one.2 hx
  have fc (o : Fin 3 → ℝ) (θ φ : ℝ) (k : Fin 2) : |fieldVector arr o θ φ 0 k| ≤ 1 := field_component_le ho (by norm_num) (by simp [Spec.maxGain]) o θ φ 0 k
  have fd (o : Fin 3 → ℝ) (θ φ : ℝ) (k : Fin 2) : |fieldVector arr o θ φ 0 k + 1e-4 - fieldVector arr o θ φ 0 k| ≤ 1e-4 * 1 := by rw [add_sub_cancel_left]; norm_num
  have hz (c m) : Close 2e-3 8 (z' c m) (nlosRay g l r (fun _ _ _ => 1) c m 0 0 0) := by
    have fu := factors_unit g l 0 0 1 2 0 0 0
    have pw : r.powers c ≤ 1 ∧ 1 / 10 ^ 20 ≤ r.powers c := by fin_cases c <;> norm_num [r]
    have c := C223_ray (Or.inl rfl) hr exact_accurate.1 exact_accurate.2 hp g l r (fun _ _ _ => 1) c m 0 0 0 (K := 1) (Ft := 1) (Fr := 1) (S := 1) (ef := 1e-4) (ea := 0) (ed := 0)
      (tx := fun k => fieldVector arr l.txOri 2 0 0 k + 1e-4) (rx := fun k => fieldVector arr l.rxOri 1 0 0 k + 1e-4)
      (by norm_num [g]) (by norm_num [g]) (by norm_num) (by norm_num [r]) (by norm_num [r]) (root (by norm_num [r])) le_rfl (by norm_num)
      (Or.inr pw.2) (root (by linarith [pw.1])) (by norm_num) (by norm_num) (by norm_num) (by norm_num) (by norm_num) (by norm_num) (by norm_num) (by norm_num) le_rfl (by norm_num) le_rfl (by norm_num)
      (fun k => ⟨fc _ _ _ k, fd _ _ _ k⟩) (fun k => ⟨fc _ _ _ k, fd _ _ _ k⟩) (a := arrayOffset g l 0 0 1 2 0 0) (d := dopplerTerm g l 0 1 0 2 0) ⟨fu.1.le, by simp [r]⟩ ⟨fu.2.le, by simp [r]⟩
    exact c.mono (by norm_num) (by norm_num) (by norm_num)
  have hl : Close 2e-3 8 a' (losCoeff g l 0 0 0) := by
    have fu := factors_unit g l l.losAoa l.losAod l.losZoa l.losZod 0 0 0
    have c := C223_los (Or.inl rfl) hr exact_accurate.1 hp g l 0 0 0 (Ft := 1) (Fr := 1) (ef := 0) (ea := 0) (ed := 0) (ec := 1e-3) (tx := fieldVector arr l.txOri l.losZod l.losAod 0)
      (rx := fieldVector arr l.rxOri l.losZoa l.losAoa 0) (a := arrayOffset g l l.losAoa l.losAod l.losZoa l.losZod 0 0) (d := dopplerTerm g l l.losAoa l.losZoa l.losAod l.losZod 0) (by norm_num [g]) (by norm_num [g]) (by norm_num) (by norm_num) (by norm_num)
      (by norm_num) le_rfl (by norm_num) le_rfl (by norm_num) le_rfl (by norm_num) (by norm_num) (by norm_num) (fun k => ⟨fc l.txOri l.losZod l.losAod k, by simp [g]⟩) (fun k => ⟨fc l.rxOri l.losZoa l.losAoa k, by simp [g]⟩)
      ⟨fu.1.le, by simp⟩ ⟨fu.2.le, by simp⟩ (c := Complex.exp (Complex.I * (2 * Real.pi * l.distance3d / g.lambda0 : ℝ)) + 1e-3) ⟨(norm_cis _).le, by rw [add_sub_cancel_left]; norm_num⟩
    exact c.mono (by norm_num) (by norm_num) (by norm_num)
  have hD : ∀ c, |r.delays c| ≤ 1e-6 := fun c => by fin_cases c <;> norm_num [r]
  have g1 : 1e-9 ≤ step12Gain true true 165 0.25 := by
    have e : Real.sqrt 0.25 = 0.5 := by rw [show (0.25 : ℝ) = 0.5 ^ 2 by norm_num, Real.sqrt_sq (by norm_num)]
    simp only [step12Gain, if_true, e, pow10]
    have : (10 : ℝ) ^ (-(165 : ℝ) / 20) ≥ 10 ^ (-(8.5 : ℝ)) := Real.rpow_le_rpow_of_exponent_le (by norm_num) (by norm_num)
    have h2 : (10 : ℝ) ^ (-(8.5 : ℝ)) ≥ 2e-9 := by
      rw [show (-(8.5 : ℝ)) = (-9 : ℤ) + 1 / 2 by norm_num, Real.rpow_add (by norm_num), Real.rpow_intCast, ← Real.sqrt_eq_rpow]
      have : 2 ≤ Real.sqrt 10 := Real.le_sqrt_of_sq_le (by norm_num)
      norm_num; linarith
    have h3 := h2.le.trans this.le
    rw [ge_iff_le] at *
    generalize (10 : ℝ) ^ (-(165 : ℝ) / 20) = x at h3 ⊢
    norm_num at h3 ⊢; linarith
  obtain ⟨_, σ, hσ⟩ := C226_paths (Or.inl rfl) hr hp r.powers hD (by norm_num) (by norm_num : (0 : ℝ) ≤ 3.9) (by norm_num) hz (by norm_num) (by norm_num) (by norm_num) (by norm_num) hh
  have some (w : Fin 6 → ℂ) : ∃ s, A.IsRaySum ((List.finRange 6).map w) s := by
    rw [List.finRange_succ, List.map_cons]
    obtain ⟨x, hx⟩ := exists_sum A.rnd (w 0).re ((((List.finRange 5).map Fin.succ).map w).map Complex.re)
    obtain ⟨y, hy⟩ := exists_sum A.rnd (w 0).im ((((List.finRange 5).map Fin.succ).map w).map Complex.im)
    exact ⟨⟨x, y⟩, hx, hy⟩
  refine ⟨h, d, hh, some _, fun y hy => ?_⟩
  have d0 : ∀ p, 0 ≤ d p ∧ d p ≤ 2e-6 := by
    intro p
    rw [(hh p).1]
    have lo := path_delay_nonneg (Or.inl rfl) hr hp r.powers (delays := r.delays) (fun c => by fin_cases c <;> norm_num [r]) (by norm_num : (0 : ℝ) ≤ 3.9) (by norm_num)
    refine ⟨lo _, ?_⟩
    generalize Tuple.sort (A.pathDelays r.powers r.delays (A.clusterDelaySpread 3.9)) p = i
    have er := (abs_le.1 (path_delay_err (Or.inl rfl) hr hp r.powers hD (by norm_num) (by norm_num : (0 : ℝ) ≤ 3.9) (by norm_num) i)).2
    have up : plainDelays r.powers r.delays (3.9 * 1e-9) i ≤ 1.5e-6 := by
      simp only [plainDelays, Arith.pathDelays, Arith.exact, id]
      split_ifs with hk
      · have o : subClDelayOffsets ⟨i.1 / 2, by omega⟩ ≤ 3 := by
          generalize (⟨i.1 / 2, by omega⟩ : Fin 3) = x
          fin_cases x <;> norm_num [subClDelayOffsets]
        have := (abs_le.1 (hD (Tuple.sort (fun k => -r.powers k) ⟨i.1 % 2, by omega⟩))).2
        norm_num at *; linarith
      · refine (abs_le.1 (hD _)).2.trans (by norm_num)
    norm_num at er up ⊢; linarith
  have p0 := Real.pi_pos
  have p4 := Real.pi_lt_d2
  have c := C230_response (Or.inl rfl) hr hp (L := ⟨(· / ·), Real.sqrt⟩) ⟨fun x y x0 _ y1 _ => by simp; positivity, fun x _ _ => by simp⟩ (P := fun x => (10 : ℝ) ^ x)
    (fun x _ => by simp; positivity) exact_accurate.2 (by norm_num) g l (k := 10) (by norm_num) (by norm_num) r (fun _ _ _ => 1) 0 0 0 (D := 1e-6) (ns := 3.9) (fun c => by fin_cases c <;> norm_num [r]) hD (by norm_num) (by norm_num) (by norm_num) hz hl
    (by norm_num) (by norm_num) (by norm_num) (by norm_num) (by norm_num) true true (pl := 165) (sf := 0.25) (by norm_num) (by norm_num) (by norm_num) (by norm_num) (by norm_num at g1 ⊢; linarith) hh
    (j := 100) (spacing := 30000) (R := 40) (q := 1e-4) (by norm_num) (by norm_num) (fun p => (d0 p).2.trans (by norm_num))
    (fun p => by
      have := mul_le_mul_of_nonneg_left (d0 p).2 (by positivity : 0 ≤ 2 * Real.pi * |((100 : ℤ) : ℝ) * 30000|)
      refine this.trans ?_
      norm_num; linarith) (by norm_num) (by norm_num; linarith) (by norm_num) hy
  have g0 : 0 ≤ step12Gain true true 165 0.25 := le_trans (by norm_num) g1
  refine le_trans (by simpa using c) ?_
  norm_num at *; linarith

end OpenNTN
