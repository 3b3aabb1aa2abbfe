import Mathlib.LinearAlgebra.Matrix.Rank
import Mathlib.LinearAlgebra.FiniteDimensional.Lemmas
import Verif.Props.Power

/-
C204: a plane wave couples two arrays by a matrix of rank one per polarisation.
-/
namespace OpenNTN

open Matrix

/-- The matrix of a coefficient for `R` receive and `T` transmit antennas at a time. -/
def Spec.mimo (h : Coeff) (R T : ℕ) (t : ℝ) : Matrix (Fin R) (Fin T) ℂ := Matrix.of fun u s => h u s t

/-- Number of wave components that two arrays can tell apart: one if one of them has a single polarisation, otherwise two. -/
def Spec.polarisations (g : CoeffGen) : ℕ := if g.tx.polarization = "single" ∨ g.rx.polarization = "single" then 1 else 2

theorem fieldVector_single {arr : PanelArray} (h : arr.polarization = "single") (o : Fin 3 → ℝ) (theta phi : ℝ) (u u' : ℕ) :
    fieldVector arr o theta phi u = fieldVector arr o theta phi u' := by
  simp only [fieldVector, if_pos h]

/-- Phase of one end of the array offset. -/
noncomputable def steer (g : CoeffGen) (arr : PanelArray) (o : Fin 3 → ℝ) (theta phi : ℝ) (u : ℕ) : ℂ :=
  Complex.exp (Complex.I * ((2 * Real.pi / g.lambda0 * ∑ k, unitSphere theta phi k * rotPos o (arr.antPos u) k : ℝ) : ℂ))

theorem arrayOffset_steer (g : CoeffGen) (l : LinkTopo) (aoa aod zoa zod : ℝ) (u s : ℕ) :
    arrayOffset g l aoa aod zoa zod u s = steer g g.rx l.rxOri zoa aoa u * steer g g.tx l.txOri zod aod s := rfl

/-- A plane wave with any polarisation mixing and any common factor. -/
theorem wave_rank (g : CoeffGen) (l : LinkTopo) (aoa aod zoa zod : ℝ) (P : Matrix (Fin 2) (Fin 2) ℂ) (R T : ℕ) (a : ℂ) :
    (Matrix.of fun (u : Fin R) (s : Fin T) => fieldMatrix g l aoa aod zoa zod P u s * arrayOffset g l aoa aod zoa zod u s * a).rank ≤ Spec.polarisations g := by
  have hgen : ∀ (κ : Type) [Fintype κ] (x : Fin R → κ → ℂ) (y : κ → Fin T → ℂ), ((Matrix.of x) * (Matrix.of y)).rank ≤ Fintype.card κ :=
    fun κ _ x y => (rank_mul_le_left _ _).trans (rank_le_card_width _)
  unfold Spec.polarisations
  split
  · rename_i h
    rcases h with h | h
    · have := hgen Unit (fun u _ => (∑ k, (fieldVector g.rx l.rxOri zoa aoa u k : ℂ) * (P *ᵥ fun k => (fieldVector g.tx l.txOri zod aod 0 k : ℂ)) k) *
        steer g g.rx l.rxOri zoa aoa u) (fun _ s => steer g g.tx l.txOri zod aod s * a)
      rw [Fintype.card_unit] at this
      convert this using 2
      ext u s
      simp only [Matrix.mul_apply, Matrix.of_apply, Finset.univ_unique, Finset.sum_singleton, fieldMatrix, arrayOffset_steer,
        fieldVector_single h l.txOri zod aod s 0]
      ring
    · have := hgen Unit (fun u _ => steer g g.rx l.rxOri zoa aoa u) (fun _ s => (∑ k, (fieldVector g.rx l.rxOri zoa aoa 0 k : ℂ) *
        (P *ᵥ fun k => (fieldVector g.tx l.txOri zod aod s k : ℂ)) k) * steer g g.tx l.txOri zod aod s * a)
      rw [Fintype.card_unit] at this
      convert this using 2
      ext u s
      simp only [Matrix.mul_apply, Matrix.of_apply, Finset.univ_unique, Finset.sum_singleton, fieldMatrix, arrayOffset_steer,
        fieldVector_single h l.rxOri zoa aoa u 0]
      ring
  · have := hgen (Fin 2) (fun u k => (fieldVector g.rx l.rxOri zoa aoa u k : ℂ) * steer g g.rx l.rxOri zoa aoa u)
      (fun k s => (P *ᵥ fun k => (fieldVector g.tx l.txOri zod aod s k : ℂ)) k * steer g g.tx l.txOri zod aod s * a)
    rw [Fintype.card_fin] at this
    convert this using 2
    ext u s
    simp only [Matrix.mul_apply, Matrix.of_apply, fieldMatrix, arrayOffset_steer, Finset.sum_mul]
    exact Finset.sum_congr rfl fun k _ => by ring

/-- All elements of arrays of a single polarisation have the same magnitude. -/
theorem wave_magnitude (g : CoeffGen) (l : LinkTopo) (aoa aod zoa zod : ℝ) (P : Matrix (Fin 2) (Fin 2) ℂ) (a : ℂ) (hr : g.rx.polarization = "single")
    (ht : g.tx.polarization = "single") (u u' s s' : ℕ) :
    ‖fieldMatrix g l aoa aod zoa zod P u s * arrayOffset g l aoa aod zoa zod u s * a‖ =
      ‖fieldMatrix g l aoa aod zoa zod P u' s' * arrayOffset g l aoa aod zoa zod u' s' * a‖ := by
  have hn : ∀ (arr : PanelArray) (o : Fin 3 → ℝ) (θ φ : ℝ) (u : ℕ), ‖steer g arr o θ φ u‖ = 1 := fun arr o θ φ u => by
    rw [steer, mul_comm, Complex.norm_exp_ofReal_mul_I]
  rw [norm_mul, norm_mul, norm_mul, norm_mul, arrayOffset_steer, arrayOffset_steer, norm_mul, norm_mul, hn, hn, hn, hn]
  simp only [fieldMatrix, fieldVector_single hr l.rxOri zoa aoa u u', fieldVector_single ht l.txOri zod aod s s']

/-- C204. The matrix of the specular path and that of every ray have at most the rank of the polarisations; between arrays of a single polarisation all
their entries have the same magnitude. -/
theorem C204_rank (g : CoeffGen) (l : LinkTopo) {M : ℕ} (r : LinkRays M) (phi : Fin M → Fin raysPerCluster → Fin 4 → ℝ) (c : Fin M) (m : Fin raysPerCluster)
    (h : Coeff) (hh : h = losCoeff g l ∨ h = nlosRay g l r phi c m) (t : ℝ) :
    (∀ R T, (Spec.mimo h R T t).rank ≤ Spec.polarisations g) ∧
    (g.rx.polarization = "single" → g.tx.polarization = "single" → ∀ u u' s s', ‖h u s t‖ = ‖h u' s' t‖) := by
  obtain ⟨aoa, aod, zoa, zod, P, a, hw⟩ : ∃ aoa aod zoa zod P a, ∀ u s, h u s t = fieldMatrix g l aoa aod zoa zod P u s * arrayOffset g l aoa aod zoa zod u s * a := by
    rcases hh with rfl | rfl
    · exact ⟨_, _, _, _, _, _, fun u s => mul_assoc _ _ _⟩
    · exact ⟨_, _, _, _, _, _, fun u s => mul_assoc _ _ _⟩
  constructor
  · intro R T
    unfold Spec.mimo
    simp only [hw]
    exact wave_rank g l aoa aod zoa zod P R T a
  · intro hr ht u u' s s'
    rw [hw, hw]
    exact wave_magnitude g l aoa aod zoa zod P a hr ht u u' s s'

theorem matrix_rank_add {R T : ℕ} (A B : Matrix (Fin R) (Fin T) ℂ) : (A + B).rank ≤ A.rank + B.rank := by
  unfold Matrix.rank
  refine le_trans (Submodule.finrank_mono ?_) (Submodule.finrank_add_le_finrank_add_finrank _ _)
  rintro _ ⟨x, rfl⟩
  rw [Matrix.mulVecLin_add, LinearMap.add_apply]
  exact Submodule.add_mem_sup ⟨x, rfl⟩ ⟨x, rfl⟩

theorem rank_sum_le {ι : Type} (S : Finset ι) {R T : ℕ} (A : ι → Matrix (Fin R) (Fin T) ℂ) : (∑ i ∈ S, A i).rank ≤ ∑ i ∈ S, (A i).rank := by
  classical
  induction S using Finset.induction_on with
  | empty => simp
  | insert i S hi ih =>
    rw [Finset.sum_insert hi, Finset.sum_insert hi]
    exact (matrix_rank_add _ _).trans (Nat.add_le_add_left ih _)

/-- Number of plane waves in path `q`: its rays, and the specular path in the first path of a link in line of sight. -/
def Spec.waves {M p : ℕ} (path : Fin M → Fin raysPerCluster → Fin (p + 1)) (los : Bool) (q : Fin (p + 1)) : ℕ :=
  (Finset.univ.filter fun x : Fin M × Fin raysPerCluster => path x.1 x.2 = q).card + if los ∧ q = 0 then 1 else 0

/-- C204 for the output: the matrix of a path has at most the rank of the polarisations times the number of its plane waves. Rays are assigned to paths as in
C47, so that a path has between four and twenty rays. -/
theorem C204_path {n : ℕ} (g : CoeffGen) (l : LinkTopo) (k : ℝ) (r : LinkRays (n + 2)) (cDs : ℝ) :
    ∃ (strong : Finset (Fin (n + 2))) (path : Fin (n + 2) → Fin raysPerCluster → Fin (n + 6)),
      strong.card = 2 ∧ (∀ c ∈ strong, ∀ d ∉ strong, r.powers d ≤ r.powers c) ∧
      (∀ c m d m', path c m = path d m' ↔ c = d ∧ (c ∈ strong → Spec.subCluster m = Spec.subCluster m')) ∧
      ∀ phi q t R T, (Spec.mimo ((coeffCall g l k r cDs phi).1 q) R T t).rank ≤ Spec.polarisations g * Spec.waves path l.los q := by
  obtain ⟨-, strong, path, h1, h2, h3, -, h5, -⟩ := C47_paths r.powers r.delays
    (fun c m (x : Fin (n + 2) → Fin raysPerCluster → Fin 4 → ℝ) => nlosRay g l r x c m) cDs
  refine ⟨strong, path, h1, h2, h5, fun phi q t R T => ?_⟩
  have ray : ∀ (a : ℂ) c m, (Matrix.of fun (u : Fin R) (s : Fin T) => nlosRay g l r phi c m u s t * a).rank ≤ Spec.polarisations g := by
    intro a c m
    have := wave_rank g l (r.aoa c m) (r.aod c m) (r.zoa c m) (r.zod c m) (withFaraday g l (phaseMatrix (phi c m) (r.xpr c m))) R T
      (dopplerTerm g l (r.aoa c m) (r.zoa c m) (r.aod c m) (r.zod c m) t * ((Real.sqrt (r.powers c / raysPerCluster) : ℝ) : ℂ) * a)
    refine le_of_eq_of_le (congrArg Matrix.rank ?_) this
    ext u s
    simp only [Matrix.of_apply, nlosRay]
    ring
  have los : ∀ a : ℂ, (Matrix.of fun (u : Fin R) (s : Fin T) => losCoeff g l u s t * a).rank ≤ Spec.polarisations g := by
    intro a
    have := wave_rank g l l.losAoa l.losAod l.losZoa l.losZod (withFaraday g l losPhaseMatrix) R T
      (dopplerTerm g l l.losAoa l.losZoa l.losAod l.losZod t * Complex.exp (Complex.I * (2 * Real.pi * l.distance3d / g.lambda0 : ℝ)) * a)
    refine le_of_eq_of_le (congrArg Matrix.rank ?_) this
    ext u s
    simp only [Matrix.of_apply, losCoeff]
    ring
  have hn : ∀ u s, (reduceNlos r.powers r.delays (nlosRay g l r phi) cDs).1 q u s t =
      ∑ x ∈ Finset.univ.filter (fun x : Fin (n + 2) × Fin raysPerCluster => path x.1 x.2 = q), nlosRay g l r phi x.1 x.2 u s t := by
    intro u s
    have e := congrFun (congrFun (congrFun (congrFun (h3 q) phi) u) s) t
    rw [reduceNlos_eval] at e
    refine e.trans ?_
    rw [Finset.sum_filter, Fintype.sum_prod_type, Finset.sum_apply, Finset.sum_apply, Finset.sum_apply, Finset.sum_apply]
    refine Finset.sum_congr rfl fun c _ => ?_
    rw [Finset.sum_apply, Finset.sum_apply, Finset.sum_apply, Finset.sum_apply]
    refine Finset.sum_congr rfl fun m _ => ?_
    split_ifs <;> rfl
  have scattered : ∀ a : ℂ, (Matrix.of fun (u : Fin R) (s : Fin T) => (reduceNlos r.powers r.delays (nlosRay g l r phi) cDs).1 q u s t * a).rank ≤
      Spec.polarisations g * (Finset.univ.filter fun x : Fin (n + 2) × Fin raysPerCluster => path x.1 x.2 = q).card := by
    intro a
    have e : (Matrix.of fun (u : Fin R) (s : Fin T) => (reduceNlos r.powers r.delays (nlosRay g l r phi) cDs).1 q u s t * a) =
        ∑ x ∈ Finset.univ.filter (fun x : Fin (n + 2) × Fin raysPerCluster => path x.1 x.2 = q),
          Matrix.of fun (u : Fin R) (s : Fin T) => nlosRay g l r phi x.1 x.2 u s t * a := by
      ext u s
      rw [Matrix.sum_apply, Matrix.of_apply, hn, Finset.sum_mul]
      rfl
    rw [e]
    refine (rank_sum_le _ _).trans ((Finset.sum_le_sum fun x _ => ray a x.1 x.2).trans ?_)
    rw [Finset.sum_const, smul_eq_mul, mul_comm]
  have hmimo : ∀ h : Coeff, Spec.mimo h R T t = Matrix.of fun (u : Fin R) (s : Fin T) => h u s t := fun _ => rfl
  rw [hmimo]
  unfold Spec.waves
  rw [mul_add]
  by_cases hl : l.los = true
  · by_cases h0 : q = 0
    · rw [if_pos ⟨hl, h0⟩, mul_one]
      have e : (Matrix.of fun (u : Fin R) (s : Fin T) => (coeffCall g l k r cDs phi).1 q u s t) =
          (Matrix.of fun (u : Fin R) (s : Fin T) => (reduceNlos r.powers r.delays (nlosRay g l r phi) cDs).1 q u s t * ((Real.sqrt (1 / (k + 1)) : ℝ) : ℂ)) +
            Matrix.of fun (u : Fin R) (s : Fin T) => losCoeff g l u s t * ((Real.sqrt (k / (k + 1)) : ℝ) : ℂ) := by
        ext u s
        rw [Matrix.add_apply, Matrix.of_apply, Matrix.of_apply, Matrix.of_apply]
        subst h0
        simp only [coeffCall, combineLos, hl, if_true]
        exact add_comm _ _
      rw [e]
      exact (matrix_rank_add _ _).trans (add_le_add (scattered _) (los _))
    · rw [if_neg fun hh => h0 hh.2, mul_zero, add_zero]
      have e : (Matrix.of fun (u : Fin R) (s : Fin T) => (coeffCall g l k r cDs phi).1 q u s t) =
          Matrix.of fun (u : Fin R) (s : Fin T) => (reduceNlos r.powers r.delays (nlosRay g l r phi) cDs).1 q u s t * ((Real.sqrt (1 / (k + 1)) : ℝ) : ℂ) := by
        ext u s
        simp only [Matrix.of_apply, coeffCall, combineLos, hl, if_true, if_neg h0]
      rw [e]
      exact scattered _
  · rw [if_neg fun hh => hl hh.1, mul_zero, add_zero]
    have e : (Matrix.of fun (u : Fin R) (s : Fin T) => (coeffCall g l k r cDs phi).1 q u s t) =
        Matrix.of fun (u : Fin R) (s : Fin T) => (reduceNlos r.powers r.delays (nlosRay g l r phi) cDs).1 q u s t * 1 := by
      ext u s
      simp only [Matrix.of_apply, coeffCall, combineLos, hl, mul_one]
      rfl
    rw [e]
    exact scattered _

/-- The hypotheses can be met: arrays of two columns with a single polarisation, in line of sight. -/
example : ∃ a, mkArray ⟨1, 2, "single", "V", "omni", 2e9, 1, 1, none, none, none, none⟩ = .ok a ∧ a.polarization = "single" ∧ a.numAnt = 2 := by
  norm_num [mkArray, patternOf, ArrayArgs.panelH, ArrayArgs.panelV, ArrayArgs.elementH, ArrayArgs.elementV, ArrayArgs.numPanels, ArrayArgs.numAnt,
    ArrayArgs.numPanelAnt, ArrayArgs.p, Except.map]

end OpenNTN
