import Verif.Model.RoundingPaths
import Verif.Props.RoundingPath
import Verif.Props.Reciprocity
import Verif.Props.Coeff2

/-
Paths of a link in the order of their delays, with rounding: C226.
-/
namespace OpenNTN

open Spec

/-- Sums without rounding. -/
theorem raySum_exact {l : List ℂ} {s : ℂ} (h : Arith.exact.IsRaySum l s) : s = l.sum := by
  have e1 := roundedSum_exact (show RoundedSum id _ s.re from h.1)
  have e2 := roundedSum_exact (show RoundedSum id _ s.im from h.2)
  refine Complex.ext (e1.trans ?_) (e2.trans ?_)
  · exact (map_list_sum Complex.reAddGroupHom _).symm
  · exact (map_list_sum Complex.imAddGroupHom _).symm

theorem roundedSum_sum (l : List ℝ) (hl : l ≠ []) : RoundedSum id l l.sum := by
  induction l with
  | nil => exact absurd rfl hl
  | cons x l ih =>
    rcases eq_or_ne l [] with rfl | h
    · simpa using RoundedSum.single (rnd := id) x
    · simpa using RoundedSum.add (RoundedSum.single x) (ih h)

/-- Delays of paths before sorting, without rounding. -/
noncomputable def plainDelays {n : ℕ} (powers delays : Fin (n + 2) → ℝ) (cDs : ℝ) : Fin (n + 6) → ℝ := Arith.exact.pathDelays powers delays cDs

theorem reduce_parts {n : ℕ} (powers delays : Fin (n + 2) → ℝ) (hFull : Fin (n + 2) → Fin raysPerCluster → ℂ) (cDs : ℝ) (k : Fin (n + 6)) :
    (reduceNlos powers delays hFull cDs).2 k = plainDelays powers delays cDs (Tuple.sort (plainDelays powers delays cDs) k) ∧
    (reduceNlos powers delays hFull cDs).1 k = ((pathRays powers (Tuple.sort (plainDelays powers delays cDs) k)).2.map
      (hFull (pathRays powers (Tuple.sort (plainDelays powers delays cDs) k)).1)).sum := by
  have e : plainDelays powers delays cDs = fun k : Fin (n + 6) =>
      if h : k.1 < 6 then delays (Tuple.sort (fun k => -powers k) ⟨k.1 % 2, by omega⟩) + subClDelayOffsets ⟨k.1 / 2, by omega⟩ * cDs
      else delays (Tuple.sort (fun k => -powers k) ⟨k.1 - 6 + 2, by omega⟩) := rfl
  refine ⟨rfl, ?_⟩
  simp only [reduceNlos]
  rw [← e]
  generalize Tuple.sort (plainDelays powers delays cDs) k = i
  unfold pathRays
  split_ifs <;> rfl

/-- Without rounding the result is that of the model of C47. -/
theorem C226_model {n : ℕ} (powers delays : Fin (n + 2) → ℝ) (hFull : Fin (n + 2) → Fin raysPerCluster → ℂ) (ns : ℝ) (h : Fin (n + 6) → ℂ) (d : Fin (n + 6) → ℝ) :
    Arith.exact.IsReduced powers delays hFull (Arith.exact.clusterDelaySpread ns) h d ↔ h = (reduceNlos powers delays hFull (ns * 1e-9)).1 ∧ d = (reduceNlos powers delays hFull (ns * 1e-9)).2 := by
  have c : Arith.exact.clusterDelaySpread ns = ns * 1e-9 := rfl
  rw [c]
  constructor
  · intro H
    constructor
    · funext k
      rw [(reduce_parts powers delays hFull (ns * 1e-9) k).2]
      exact raySum_exact (H k).2
    · funext k
      exact (H k).1
  · rintro ⟨rfl, rfl⟩ k
    refine ⟨rfl, ?_⟩
    rw [(reduce_parts powers delays hFull (ns * 1e-9) k).2]
    change Arith.exact.IsRaySum ((pathRays powers (Tuple.sort (plainDelays powers delays (ns * 1e-9)) k)).2.map (hFull (pathRays powers (Tuple.sort (plainDelays powers delays (ns * 1e-9)) k)).1)) _
    generalize Tuple.sort (plainDelays powers delays (ns * 1e-9)) k = i
    have ne : (pathRays powers i).2 ≠ [] := by
      unfold pathRays
      split_ifs <;> simp [subCl1Ind, subCl2Ind, subCl3Ind, List.finRange_eq_nil_iff, raysPerCluster]
    have part (g : ℂ →+ ℝ) : RoundedSum id (((pathRays powers i).2.map (hFull (pathRays powers i).1)).map g) (g ((pathRays powers i).2.map (hFull (pathRays powers i).1)).sum) := by
      rw [map_list_sum]
      exact roundedSum_sum _ (by simpa using ne)
    exact ⟨part Complex.reAddGroupHom, part Complex.imAddGroupHom⟩

/-- Sorting does not enlarge deviations. -/
theorem sorted_le {m : ℕ} {a b : Fin m → ℝ} {e : ℝ} (h : ∀ k, a k ≤ b k + e) (q : Fin m) : a (Tuple.sort a q) ≤ b (Tuple.sort b q) + e := by
  by_contra hc
  push Not at hc
  have lt (i : Fin m) (hi : i ≤ q) : (Tuple.sort a).symm (Tuple.sort b i) < q := by
    by_contra hj
    push Not at hj
    have h1 := Tuple.monotone_sort a hj
    have h2 := Tuple.monotone_sort b hi
    simp only [Function.comp_apply, Equiv.apply_symm_apply] at h1 h2
    linarith [h (Tuple.sort b i)]
  have card := Finset.card_le_card_of_injOn (s := Finset.Iic q) (t := Finset.Iio q) (fun i => (Tuple.sort a).symm (Tuple.sort b i))
    (fun i hi => by simpa using lt i (by simpa using hi)) (fun i _ j _ hij => by simpa using hij)
  simp at card

theorem sorted_near {m : ℕ} {a b : Fin m → ℝ} {e : ℝ} (h : ∀ k, |a k - b k| ≤ e) (q : Fin m) : |a (Tuple.sort a q) - b (Tuple.sort b q)| ≤ e := by
  have h1 := sorted_le (a := a) (b := b) (e := e) (fun k => by linarith [(abs_le.1 (h k)).2]) q
  have h2 := sorted_le (a := b) (b := a) (e := e) (fun k => by linarith [(abs_le.1 (h k)).1]) q
  rw [abs_le]; constructor <;> linarith

section

variable {f : Format} (hf : IEEE f) {A : Arith} (hr : Nearest f A.rnd)

include hf hr

/-- A Python constant as a tensor. -/
theorem const_err (hp : Nearest double A.py) {x : ℝ} (hx : |x| ≤ 10 ^ 20) : |A.rnd (A.py x) - x| ≤ 1.3e-7 * |x| + 5e-38 := by
  have e1 := rnd_small (A := ⟨A.py, A.py, A.sin, A.log10⟩) (Or.inr rfl) hp (x := x) (hx.trans (by norm_num))
  simp only at e1
  have b : |A.py x| ≤ |x| + (6e-8 * |x| + 2e-38) := near_of e1 le_rfl
  have e2 := rnd_small hf hr (x := A.py x) (by norm_num at *; linarith)
  refine (tri_of e2 e1).trans ?_
  norm_num at *; linarith [abs_nonneg x]

/-- Delay of a path before sorting. -/
theorem path_delay_err (hp : Nearest double A.py) {n : ℕ} (powers : Fin (n + 2) → ℝ) {delays : Fin (n + 2) → ℝ} {D ns : ℝ} (hD : ∀ c, |delays c| ≤ D) (D2 : D ≤ 1)
    (n0 : 0 ≤ ns) (n1 : ns ≤ 10 ^ 6) (k : Fin (n + 6)) :
    |A.pathDelays powers delays (A.clusterDelaySpread ns) k - plainDelays powers delays (ns * 1e-9) k| ≤ 5e-7 * (D + 2.56e-9 * ns) + 2e-37 := by
  have D0 : 0 ≤ D := (abs_nonneg _).trans (hD 0)
  unfold plainDelays Arith.pathDelays
  simp only
  split_ifs with h
  · have d := hD (Tuple.sort (fun k => -powers k) ⟨k.1 % 2, by omega⟩)
    generalize delays (Tuple.sort (fun k => -powers k) ⟨k.1 % 2, by omega⟩) = x at d ⊢
    have off (i : Fin 3) : |subClDelayOffsets i| ≤ 2.56 ∧ |A.rnd (A.py (subClDelayOffsets i)) - subClDelayOffsets i| ≤ 3.33e-7 := by
      have o1 : |subClDelayOffsets i| ≤ 2.56 := by fin_cases i <;> norm_num [subClDelayOffsets]
      refine ⟨o1, (const_err hf hr hp (o1.trans (by norm_num))).trans ?_⟩
      norm_num at *; linarith
    obtain ⟨o1, o2⟩ := off ⟨k.1 / 2, by omega⟩
    change |A.rnd (x + A.rnd (A.rnd (A.py (subClDelayOffsets ⟨k.1 / 2, by omega⟩)) * A.clusterDelaySpread ns)) - (x + subClDelayOffsets ⟨k.1 / 2, by omega⟩ * (ns * 1e-9))| ≤ _
    generalize subClDelayOffsets ⟨k.1 / 2, by omega⟩ = o at o1 o2 ⊢
    generalize A.rnd (A.py o) = o' at o2 ⊢
    have c : |A.clusterDelaySpread ns - ns * 1e-9| ≤ 1.92e-16 * ns + 2e-38 := by
      unfold Arith.clusterDelaySpread
      have g := const_err hf hr hp (x := 1e-9) (by norm_num)
      generalize A.rnd (A.py 1e-9) = y at g ⊢
      have g1 : |ns * y - ns * 1e-9| ≤ 1.31e-16 * ns := by
        rw [← mul_sub, abs_mul, abs_of_nonneg n0, mul_comm]
        exact mul_le_mul_of_nonneg_right (g.trans (by norm_num)) n0
      have g0 : |ns * 1e-9| ≤ 1e-9 * ns := by rw [abs_of_nonneg (by positivity), mul_comm]
      have g2 := near_of g1 g0
      clear g
      generalize ns * y = w at g1 g2 ⊢
      have e := rnd_small hf hr (x := w) (g2.trans (by norm_num at *; linarith))
      refine (tri_of e g1).trans ?_
      clear g1
      norm_num at *; linarith
    generalize A.clusterDelaySpread ns = s at c ⊢
    have s0 : |ns * 1e-9| ≤ 1e-9 * ns := by rw [abs_of_nonneg (by positivity), mul_comm]
    have s1 := near_of c s0
    have p : |o' * s - o * (ns * 1e-9)| ≤ 3.33e-7 * (1e-9 * ns + (1.92e-16 * ns + 2e-38)) + 2.56 * (1.92e-16 * ns + 2e-38) := by
      rw [show o' * s - o * (ns * 1e-9) = (o' - o) * s + o * (s - ns * 1e-9) by ring]
      refine (abs_add_le _ _).trans (add_le_add ?_ ?_)
      · rw [abs_mul]; exact mul_le_mul o2 s1 (abs_nonneg _) (by norm_num)
      · rw [abs_mul]; exact mul_le_mul o1 c (abs_nonneg _) (by norm_num)
    have p0 : |o * (ns * 1e-9)| ≤ 2.56 * (1e-9 * ns) := by rw [abs_mul]; exact mul_le_mul o1 s0 (abs_nonneg _) (by norm_num)
    generalize o * (ns * 1e-9) = w at p p0 ⊢
    generalize o' * s = w' at p ⊢
    have p1 := near_of p p0
    have e1 := rnd_small hf hr (x := w') (p1.trans (by norm_num at *; linarith))
    have q := tri_of e1 p
    have q0 := near_of q p0
    generalize A.rnd w' = v at e1 q q0 ⊢
    have t0 : |x + v| ≤ D + |v| := (abs_add_le _ _).trans (by linarith)
    have e2 := rnd_small hf hr (x := x + v) (t0.trans (by norm_num at *; linarith))
    have r := q
    rw [show v - w = x + v - (x + w) by ring] at r
    refine (tri_of e2 r).trans ?_
    clear r q e1 e2 p o2 c s0 off
    norm_num at *; linarith
  · simp only [sub_self, abs_zero]; positivity

/-- Paths in order: coefficients and delays are those of the paths of the model, up to rounding, where paths with equal delays up to rounding may be exchanged. -/
theorem C226_paths (hp : Nearest double A.py) {n : ℕ} (powers : Fin (n + 2) → ℝ) {delays : Fin (n + 2) → ℝ} {D ns e B : ℝ} (hD : ∀ c, |delays c| ≤ D) (D2 : D ≤ 1)
    (n0 : 0 ≤ ns) (n1 : ns ≤ 10 ^ 6) {z' z : Fin (n + 2) → Fin raysPerCluster → ℂ} (hz : ∀ c m, Close e B (z' c m) (z c m)) (e0 : 0 ≤ e) (e1 : e ≤ 1 / 10) (b1 : 1 / 10 ^ 25 ≤ B) (b2 : B ≤ 10 ^ 25)
    {h : Fin (n + 6) → ℂ} {d : Fin (n + 6) → ℝ} (hh : A.IsReduced powers delays z' (A.clusterDelaySpread ns) h d) :
    Monotone d ∧ ∃ σ : Equiv.Perm (Fin (n + 6)), ∀ q,
      Close (e + 2.2e-6) (20 * B) (h q) ((reduceNlos powers delays z (ns * 1e-9)).1 (σ q)) ∧
      |d q - (reduceNlos powers delays z (ns * 1e-9)).2 q| ≤ 5e-7 * (D + 2.56e-9 * ns) + 2e-37 ∧
      |(reduceNlos powers delays z (ns * 1e-9)).2 (σ q) - (reduceNlos powers delays z (ns * 1e-9)).2 q| ≤ 2 * (5e-7 * (D + 2.56e-9 * ns) + 2e-37) := by
  have pd := path_delay_err hf hr hp powers hD D2 n0 n1
  set a := A.pathDelays powers delays (A.clusterDelaySpread ns) with ha
  set b := plainDelays powers delays (ns * 1e-9) with hb
  have hd (q) : d q = a (Tuple.sort a q) := (hh q).1
  refine ⟨fun i j hij => by rw [hd, hd]; exact Tuple.monotone_sort a hij, (Tuple.sort a).trans (Tuple.sort b).symm, fun q => ?_⟩
  have s2 (q) : (reduceNlos powers delays z (ns * 1e-9)).2 q = b (Tuple.sort b q) := (reduce_parts powers delays z (ns * 1e-9) q).1
  have s1 (q) := (reduce_parts powers delays z (ns * 1e-9) q).2
  rw [← hb] at s1
  have near := sorted_near pd q
  refine ⟨?_, by rw [hd, s2]; exact near, ?_⟩
  · rw [s1]
    simp only [Equiv.trans_apply, Equiv.apply_symm_apply]
    have hs := (hh q).2
    rw [← ha] at hs
    generalize Tuple.sort a q = i at hs ⊢
    have len : (pathRays powers i).2.length ≤ 20 := by
      unfold pathRays
      split_ifs <;> simp [subCl1Ind, subCl2Ind, subCl3Ind, raysPerCluster]
    have c := ray_sum_close hf hr (z' (pathRays powers i).1) (z (pathRays powers i).1) (pathRays powers i).2 (fun m _ => hz _ m) hs len e0 e1 b1 b2
    refine c.mono le_rfl (mul_le_mul_of_nonneg_right (by exact_mod_cast len) (le_trans (by norm_num) b1)) (by positivity)
  · rw [s2, s2]
    simp only [Equiv.trans_apply, Equiv.apply_symm_apply]
    rw [two_mul]
    refine tri_of ?_ near
    rw [abs_sub_comm]; exact pd _

/-- Coefficients that the channel model returns for a pair of antennas and a time: errors of the rays and of the LoS path pass through division into paths, sorting, combination and step 12. -/
theorem C226_link (hp : Nearest double A.py) {L : ComplexLib} (hL : AccurateComplex L) {P : ℝ → ℝ} (hP : AccuratePowWide P) {n : ℕ} (g : CoeffGen) (l : LinkTopo) {k : ℝ} (k0 : 0 ≤ k) (k1 : k ≤ 10 ^ 12)
    (r : LinkRays (n + 2)) (phi : Fin (n + 2) → Fin raysPerCluster → Fin 4 → ℝ) (u s : ℕ) (t : ℝ) {D ns e B C : ℝ} (hD : ∀ c, |r.delays c| ≤ D) (D2 : D ≤ 1) (n0 : 0 ≤ ns) (n1 : ns ≤ 10 ^ 6)
    {z' : Fin (n + 2) → Fin raysPerCluster → ℂ} {a' : ℂ} (hz : ∀ c m, Close e B (z' c m) (nlosRay g l r phi c m u s t)) (ha : Close e C a' (losCoeff g l u s t))
    (e0 : 0 ≤ e) (e1 : e ≤ 9 / 100) (b1 : 1 / 10 ^ 25 ≤ B) (b2 : B ≤ 5000) (c2 : C ≤ 10 ^ 5) (pe se : Bool) {pl sf : ℝ} (l0 : 0 ≤ pl) (l1 : pl ≤ 400) (s0 : 1e-8 ≤ sf) (s1 : sf ≤ 1e8)
    {h : Fin (n + 6) → ℂ} {d : Fin (n + 6) → ℝ} (hh : A.IsReduced r.powers r.delays z' (A.clusterDelaySpread ns) h d) :
    Monotone d ∧ ∃ σ : Equiv.Perm (Fin (n + 6)), ∀ q,
      ‖A.step12 P pe se pl sf (A.combineLos L l.los k a' h q) -
        combineLos l.los k (losCoeff g l) (fun q => (reduceNlos r.powers r.delays (nlosRay g l r phi) (ns * 1e-9)).1 (σ q)) q u s t * (step12Gain pe se pl sf : ℂ)‖ ≤
        (e + 2.7e-5) * ((C + 20 * B) * step12Gain pe se pl sf) + (step12Gain pe se pl sf + 1) * 1e-35 ∧
      |d q - (coeffCall g l k r (ns * 1e-9) phi).2 q| ≤ 5e-7 * (D + 2.56e-9 * ns) + 2e-37 ∧
      |(coeffCall g l k r (ns * 1e-9) phi).2 (σ q) - (coeffCall g l k r (ns * 1e-9) phi).2 q| ≤ 2 * (5e-7 * (D + 2.56e-9 * ns) + 2e-37) := by
  obtain ⟨mono, σ, hσ⟩ := C226_paths hf hr hp r.powers hD D2 n0 n1 hz e0 (e1.trans (by norm_num)) b1 (b2.trans (by norm_num)) hh
  refine ⟨mono, σ, fun q => ⟨?_, (hσ q).2.1, (hσ q).2.2⟩⟩
  have c := C225_path hf hr hL hP l.los k0 k1 (ha.mono (e' := e + 2.2e-6) (by norm_num) le_rfl (by positivity)) (fun q => (hσ q).1) (by positivity) (by norm_num at *; linarith) c2 (by norm_num at *; linarith)
    pe se l0 l1 s0 s1 q u s t
  have ex : combineLos l.los k (losCoeff g l) (fun q => (reduceNlos r.powers r.delays (nlosRay g l r phi) (ns * 1e-9)).1 (σ q)) q u s t =
      combineLos l.los k (fun _ _ _ => losCoeff g l u s t) (fun q _ _ _ => (reduceNlos r.powers r.delays (fun c m => nlosRay g l r phi c m u s t) (ns * 1e-9)).1 (σ q)) q u s t := by
    rw [combineLos_apply, combineLos_apply, reduceNlos_coeff]
  rw [ex]
  have g0 : 0 ≤ step12Gain pe se pl sf := by unfold step12Gain pow10; positivity
  have m0 : 0 ≤ (C + 20 * B) * step12Gain pe se pl sf := mul_nonneg (by have := (norm_nonneg _).trans ha.1; have : 0 ≤ B := le_trans (by norm_num) b1; linarith) g0
  refine c.trans (by gcongr ?_ * _ + _; norm_num; linarith)

end

theorem exists_reduced (A : Arith) {n : ℕ} (powers delays : Fin (n + 2) → ℝ) (z : Fin (n + 2) → Fin raysPerCluster → ℂ) (cDs : ℝ) : ∃ h d, A.IsReduced powers delays z cDs h d := by
  have sum (k : Fin (n + 6)) : ∃ s, A.IsRaySum ((pathRays powers k).2.map (z (pathRays powers k).1)) s := by
    have ne : ∃ m ms, (pathRays powers k).2 = m :: ms := by
      unfold pathRays
      split_ifs
      · exact ⟨_, _, rfl⟩
      · exact ⟨_, _, rfl⟩
      · exact ⟨_, _, rfl⟩
      · exact ⟨_, _, List.finRange_succ (n := 19)⟩
    obtain ⟨m, ms, e⟩ := ne
    rw [e]
    generalize (pathRays powers k).1 = c
    obtain ⟨x, hx⟩ := exists_sum A.rnd (z c m).re ((ms.map (z c)).map Complex.re)
    obtain ⟨y, hy⟩ := exists_sum A.rnd (z c m).im ((ms.map (z c)).map Complex.im)
    exact ⟨⟨x, y⟩, hx, hy⟩
  choose s hs using sum
  exact ⟨fun k => s (Tuple.sort (A.pathDelays powers delays cDs) k), fun k => A.pathDelays powers delays cDs (Tuple.sort (A.pathDelays powers delays cDs) k), fun k => ⟨rfl, hs _⟩⟩

/-- Two clusters with a cluster delay spread of 3.9 ns and a K-factor of 10, seen from a satellite with 165 dB path loss; field components have errors of up to `1e-4`. -/
example : ∃ (A : Arith) (arr : PanelArray), Nearest Spec.single A.rnd ∧ mkAntenna "single" "V" "omni" 2e9 = .ok arr ∧
    let r : LinkRays 2 := ⟨![0, 1e-6], ![1 / 4, 3 / 4], fun _ _ => 0, fun _ _ => 0, fun _ _ => 1, fun _ _ => 2, fun _ _ => 10⟩
    let g : CoeffGen := ⟨2e9, arr, arr⟩
    let l := exSatLink 30 0
    let z' : Fin 2 → Fin raysPerCluster → ℂ := fun c m => A.nlosRay TrigLib.exact (fun x => Complex.exp (x * Complex.I)) (decide (600000 ≤ l.bsHeight)) g.fc (fun _ => 1) (r.xpr c m) (r.powers c)
      (fun k => fieldVector arr l.txOri 2 0 0 k + 1e-4) (fun k => fieldVector arr l.rxOri 1 0 0 k + 1e-4) (arrayOffset g l 0 0 1 2 0 0) (dopplerTerm g l 0 1 0 2 0)
    let a' := A.losCoeff TrigLib.exact (decide (600000 ≤ l.bsHeight)) g.fc (fieldVector arr l.txOri l.losZod l.losAod 0) (fieldVector arr l.rxOri l.losZoa l.losAoa 0)
      (arrayOffset g l l.losAoa l.losAod l.losZoa l.losZod 0 0) (dopplerTerm g l l.losAoa l.losZoa l.losAod l.losZod 0) (Complex.exp (Complex.I * (2 * Real.pi * l.distance3d / g.lambda0 : ℝ)) + 1e-3)
    ∃ h d, A.IsReduced r.powers r.delays z' (A.clusterDelaySpread 3.9) h d ∧ Monotone d ∧ ∃ σ : Equiv.Perm (Fin 6), ∀ q,
      ‖A.step12 (fun x => (10 : ℝ) ^ x) true true 165 0.25 (A.combineLos ⟨(· / ·), Real.sqrt⟩ l.los 10 a' h q) -
        combineLos l.los 10 (losCoeff g l) (fun q => (reduceNlos r.powers r.delays (nlosRay g l r (fun _ _ _ => 1)) (3.9 * 1e-9)).1 (σ q)) q 0 0 0 * (step12Gain true true 165 0.25 : ℂ)‖ ≤
        (2e-3 + 2.7e-5) * ((8 + 20 * 8) * step12Gain true true 165 0.25) + (step12Gain true true 165 0.25 + 1) * 1e-35 := by
  obtain ⟨A, hr, hp⟩ := exists_arith Spec.single (Or.inl rfl)
  obtain ⟨arr, ho, _⟩ := exAntenna_ok
  refine ⟨A, arr, hr, ho, ?_⟩
  intro r g l z' a'
  obtain ⟨h, d, hh⟩ := exists_reduced A r.powers r.delays z' (A.clusterDelaySpread 3.9)
  have root {x : ℝ} (hx : x ≤ 1) : Real.sqrt x ≤ 1 := Real.sqrt_le_one.2 hx
  have fc (o : Fin 3 → ℝ) (θ φ : ℝ) (k : Fin 2) : |fieldVector arr o θ φ 0 k| ≤ 1 := field_component_le ho (by norm_num) (by simp [Spec.maxGain]) o θ φ 0 k
  have fd (o : Fin 3 → ℝ) (θ φ : ℝ) (k : Fin 2) : |fieldVector arr o θ φ 0 k + 1e-4 - fieldVector arr o θ φ 0 k| ≤ 1e-4 * 1 := by rw [add_sub_cancel_left]; norm_num
  have hz (c m) : Close 2e-3 8 (z' c m) (nlosRay g l r (fun _ _ _ => 1) c m 0 0 0) := by
    have fu := factors_unit g l 0 0 1 2 0 0 0
    have pw : r.powers c ≤ 1 ∧ 1 / 10 ^ 20 ≤ r.powers c := by fin_cases c <;> norm_num [r]
    have c := C223_ray (Or.inl rfl) hr exact_accurate.1 exact_accurate.2 hp g l r (fun _ _ _ => 1) c m 0 0 0 (K := 1) (Ft := 1) (Fr := 1) (S := 1) (ef := 1e-4) (ea := 0) (ed := 0)
      (tx := fun k => fieldVector arr l.txOri 2 0 0 k + 1e-4) (rx := fun k => fieldVector arr l.rxOri 1 0 0 k + 1e-4)
      (by norm_num [g]) (by norm_num [g]) (by norm_num) (by norm_num [r]) (by norm_num [r]) (root (by norm_num [r])) le_rfl (by norm_num)
      (Or.inr pw.2) (root (by linarith [pw.1])) (by norm_num) (by norm_num) (by norm_num) (by norm_num) (by norm_num) (by norm_num) (by norm_num) (by norm_num) le_rfl (by norm_num) le_rfl (by norm_num)
      (fun k => ⟨fc _ _ _ k, fd _ _ _ k⟩) (fun k => ⟨fc _ _ _ k, fd _ _ _ k⟩) (a := arrayOffset g l 0 0 1 2 0 0) (d := dopplerTerm g l 0 1 0 2 0) ⟨fu.1.le, by simp [r]⟩ ⟨fu.2.le, by simp [r]⟩
    exact c.mono (by norm_num) (by norm_num) (by norm_num)
  have hl : Close 2e-3 8 a' (losCoeff g l 0 0 0) := by
    have fu := factors_unit g l l.losAoa l.losAod l.losZoa l.losZod 0 0 0
    have c := C223_los (Or.inl rfl) hr exact_accurate.1 hp g l 0 0 0 (Ft := 1) (Fr := 1) (ef := 0) (ea := 0) (ed := 0) (ec := 1e-3) (tx := fieldVector arr l.txOri l.losZod l.losAod 0)
      (rx := fieldVector arr l.rxOri l.losZoa l.losAoa 0) (a := arrayOffset g l l.losAoa l.losAod l.losZoa l.losZod 0 0) (d := dopplerTerm g l l.losAoa l.losZoa l.losAod l.losZod 0) (by norm_num [g]) (by norm_num [g]) (by norm_num) (by norm_num) (by norm_num)
      (by norm_num) le_rfl (by norm_num) le_rfl (by norm_num) le_rfl (by norm_num) (by norm_num) (by norm_num) (fun k => ⟨fc l.txOri l.losZod l.losAod k, by simp [g]⟩) (fun k => ⟨fc l.rxOri l.losZoa l.losAoa k, by simp [g]⟩)
      ⟨fu.1.le, by simp⟩ ⟨fu.2.le, by simp⟩ (c := Complex.exp (Complex.I * (2 * Real.pi * l.distance3d / g.lambda0 : ℝ)) + 1e-3) ⟨(norm_cis _).le, by rw [add_sub_cancel_left]; norm_num⟩
    exact c.mono (by norm_num) (by norm_num) (by norm_num)
  obtain ⟨mono, σ, hσ⟩ := C226_link (Or.inl rfl) hr hp (L := ⟨(· / ·), Real.sqrt⟩) ⟨fun x y x0 _ y1 _ => by simp; positivity, fun x _ _ => by simp⟩ (P := fun x => (10 : ℝ) ^ x)
    (fun x _ => by simp; positivity) g l (k := 10) (by norm_num) (by norm_num) r (fun _ _ _ => 1) 0 0 0 (D := 1) (ns := 3.9) (fun c => by fin_cases c <;> norm_num [r]) le_rfl (by norm_num) (by norm_num) hz hl
    (by norm_num) (by norm_num) (by norm_num) (by norm_num) (by norm_num) true true (pl := 165) (sf := 0.25) (by norm_num) (by norm_num) (by norm_num) (by norm_num) hh
  exact ⟨h, d, hh, mono, σ, fun q => (hσ q).1⟩

end OpenNTN
