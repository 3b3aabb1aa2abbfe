import Verif.Props.RoundingRays
import Verif.Props.RoundingMovement

/-
From coefficients of LoS and clusters to the coefficients that the channel model returns, with rounding: C225.
-/
namespace OpenNTN

open Spec

/-- Combination of LoS and NLoS does not enlarge errors. -/
theorem combine_contract {p : ℕ} (los : Bool) {k : ℝ} (k0 : 0 ≤ k) {a' a : ℂ} {h' h : Fin (p + 1) → ℂ} {e B C : ℝ} (ha : Close e B a' a) (hh : ∀ q, Close e C (h' q) (h q)) (e0 : 0 ≤ e) (q : Fin (p + 1)) (u s : ℕ) (t : ℝ) :
    Close e (B + C) (combineLos los k (fun _ _ _ => a') (fun q _ _ _ => h' q) q u s t) (combineLos los k (fun _ _ _ => a) (fun q _ _ _ => h q) q u s t) := by
  have kp : 0 < k + 1 := by linarith
  have la : ‖((Real.sqrt (k / (k + 1)) : ℝ) : ℂ)‖ ≤ 1 := by
    rw [Complex.norm_real, Real.norm_eq_abs, abs_of_nonneg (Real.sqrt_nonneg _)]; exact Real.sqrt_le_one.2 ((div_le_one kp).2 (by linarith))
  have lb : ‖((Real.sqrt (1 / (k + 1)) : ℝ) : ℂ)‖ ≤ 1 := by
    rw [Complex.norm_real, Real.norm_eq_abs, abs_of_nonneg (Real.sqrt_nonneg _)]; exact Real.sqrt_le_one.2 ((div_le_one kp).2 (by linarith))
  have B0 : 0 ≤ B := (norm_nonneg _).trans ha.1
  have C0 : 0 ≤ C := (norm_nonneg _).trans (hh q).1
  have sc {e B : ℝ} {z' z w : ℂ} (hz : Close e B z' z) (hw : ‖w‖ ≤ 1) : Close e B (z' * w) (z * w) := by
    refine ⟨?_, ?_⟩
    · rw [norm_mul]; exact (mul_le_of_le_one_right (norm_nonneg _) hw).trans hz.1
    · rw [← sub_mul, norm_mul]; exact (mul_le_of_le_one_right (norm_nonneg _) hw).trans hz.2
  unfold combineLos
  cases los
  · exact (hh q).mono le_rfl (by linarith) e0
  · by_cases h0 : q = 0
    · subst h0
      have x := sc ha la
      have y := sc (hh 0) lb
      simp only [if_true]
      refine ⟨(norm_add_le _ _).trans (add_le_add x.1 y.1), ?_⟩
      rw [add_sub_add_comm, mul_add]
      exact (norm_add_le _ _).trans (add_le_add x.2 y.2)
    · simp only [h0, if_true, if_false]
      exact (sc (hh q) lb).mono le_rfl (by linarith) e0

section

variable {f : Format} (hf : IEEE f) {A : Arith} (hr : Nearest f A.rnd)

include hf hr

/-- Coefficient of a path: errors of LoS and cluster coefficients pass through both steps, which add 2.4e-5 of the bound. -/
theorem C225_path {L : ComplexLib} (hL : AccurateComplex L) {P : ℝ → ℝ} (hP : AccuratePowWide P) {p : ℕ} (los : Bool) {k : ℝ} (k0 : 0 ≤ k) (k1 : k ≤ 10 ^ 12) {a' a : ℂ} {h' h : Fin (p + 1) → ℂ}
    {e B C : ℝ} (ha : Close e B a' a) (hh : ∀ q, Close e C (h' q) (h q)) (e0 : 0 ≤ e) (e1 : e ≤ 1 / 10) (hB : B ≤ 10 ^ 5) (hC : C ≤ 10 ^ 5)
    (pe se : Bool) {pl sf : ℝ} (l0 : 0 ≤ pl) (l1 : pl ≤ 400) (s0 : 1e-8 ≤ sf) (s1 : sf ≤ 1e8) (q : Fin (p + 1)) (u s : ℕ) (t : ℝ) :
    ‖A.step12 P pe se pl sf (A.combineLos L los k a' h' q) - combineLos los k (fun _ _ _ => a) (fun q _ _ _ => h q) q u s t * (step12Gain pe se pl sf : ℂ)‖ ≤
      (e + 2.4e-5) * ((B + C) * step12Gain pe se pl sf) + (step12Gain pe se pl sf + 1) * 1e-35 := by
  have B0 : 0 ≤ B := (norm_nonneg _).trans ha.1
  have C0 : 0 ≤ C := (norm_nonneg _).trans (hh q).1
  have n1 : ‖a'‖ ≤ 1.1 * B := ha.norm.trans (mul_le_mul_of_nonneg_right (by norm_num at *; linarith) B0)
  have n2 (q) : ‖h' q‖ ≤ 1.1 * C := (hh q).norm.trans (mul_le_mul_of_nonneg_right (by norm_num at *; linarith) C0)
  have c := C222_combined hf hr hL los k0 k1 (hLos := a') (hNlos := h') (n1.trans (by norm_num at *; linarith)) (fun q => (n2 q).trans (by norm_num at *; linarith)) q u s t
  have d := combine_contract los k0 ha hh e0 q u s t
  generalize combineLos los k (fun _ _ _ => a') (fun q _ _ _ => h' q) q u s t = y at c d
  generalize combineLos los k (fun _ _ _ => a) (fun q _ _ _ => h q) q u s t = z at d ⊢
  generalize A.combineLos L los k a' h' q = x at c ⊢
  have c' : ‖x - y‖ ≤ 1.1e-5 * (B + C) + 1e-36 := by
    refine c.trans ?_
    have i : (if q = 0 then ‖a'‖ else 0) ≤ 1.1 * B := by split_ifs <;> [exact n1; positivity]
    have := n2 q
    norm_num at *; linarith
  have xz : ‖x - z‖ ≤ (e + 1.1e-5) * (B + C) + 1e-36 := by
    refine (norm_sub_le_norm_sub_add_norm_sub x y z).trans ((add_le_add c' d.2).trans (le_of_eq ?_)); ring
  have eb : e * (B + C) ≤ 1 / 10 * (B + C) := mul_le_mul_of_nonneg_right e1 (by linarith)
  have nx : ‖x‖ ≤ 1.11 * (B + C) + 1e-36 := by
    have t := norm_add_le (x - z) z
    rw [sub_add_cancel] at t
    have := d.1
    rw [add_mul] at xz
    norm_num at *; linarith
  have g := C222_coefficient hf hr hP pe se l0 l1 s0 s1 (h := x) (nx.trans (by norm_num at *; linarith))
  have g0 : 0 ≤ step12Gain pe se pl sf := by unfold step12Gain pow10; positivity
  generalize step12Gain pe se pl sf = G at g g0 ⊢
  have w : ‖x * (G : ℂ) - z * G‖ ≤ ((e + 1.1e-5) * (B + C) + 1e-36) * G := by
    rw [← sub_mul, norm_mul, Complex.norm_real, Real.norm_eq_abs, abs_of_nonneg g0]
    exact mul_le_mul_of_nonneg_right xz g0
  have v : ‖x‖ * G ≤ (1.11 * (B + C) + 1e-36) * G := mul_le_mul_of_nonneg_right nx g0
  refine (norm_sub_le_norm_sub_add_norm_sub _ _ _).trans ((add_le_add g w).trans ?_)
  have bg : 0 ≤ (B + C) * G := mul_nonneg (by linarith) g0
  have x1 : (1.11 * (B + C) + 1e-36) * G = 1.11 * ((B + C) * G) + 1e-36 * G := by ring
  have x2 : ((e + 1.1e-5) * (B + C) + 1e-36) * G = e * ((B + C) * G) + 1.1e-5 * ((B + C) * G) + 1e-36 * G := by ring
  have x3 : (e + 2.4e-5) * ((B + C) * G) = e * ((B + C) * G) + 2.4e-5 * ((B + C) * G) := by ring
  rw [x1] at v
  rw [x2, x3]
  generalize e * ((B + C) * G) = m at *
  generalize (B + C) * G = o at *
  generalize ‖x‖ * G = r at *
  clear xz eb nx x1 x2 x3 w c c' d n1 n2 g
  norm_num at *; linarith

end

/-- A link in LoS with a K-factor of 10, two paths with errors of a thousandth, and 165 dB path loss. -/
example : ∃ A : Arith, Nearest Spec.single A.rnd ∧
    ‖A.step12 (fun x => (10 : ℝ) ^ x) true true 165 0.25 (A.combineLos ⟨(· / ·), Real.sqrt⟩ true 10 1.001 ![1, 0.999] 0) -
      combineLos true 10 (fun _ _ _ => 1) (fun _ _ _ _ => 1) (0 : Fin 2) 0 0 0 * (step12Gain true true 165 0.25 : ℂ)‖ ≤
      (1e-3 + 2.4e-5) * ((1 + 1) * step12Gain true true 165 0.25) + (step12Gain true true 165 0.25 + 1) * 1e-35 := by
  obtain ⟨A, hr, _⟩ := exists_arith Spec.single (Or.inl rfl)
  refine ⟨A, hr, C225_path (Or.inl rfl) hr ⟨fun x y x0 _ y1 _ => by simp; positivity, fun x _ _ => by simp⟩ (fun x _ => by simp; positivity) true (by norm_num) (by norm_num) (h := fun _ => 1)
    ⟨by simp, by norm_num⟩ (fun q => ⟨by simp, ?_⟩) (by norm_num) (by norm_num) (by norm_num) (by norm_num) true true (by norm_num) (by norm_num) (by norm_num) (by norm_num) 0 0 0 0⟩
  fin_cases q <;> norm_num

end OpenNTN
