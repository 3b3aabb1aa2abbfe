import Mathlib.Probability.Distributions.Gaussian.Real
import Verif.Lemmas.Sorting
import Verif.Props.Rays

/-
C146: the law of random coupling (rays.py 720-794).
-/
namespace OpenNTN

open MeasureTheory ProbabilityTheory Classical Spec

variable {B N U M : ℕ} [NeZero B] [NeZero N] [NeZero M] {cls : ScenarioClass} {sa : ScenarioArgs} {c : Config}

/-- The angles of a ray. -/
inductive Spec.AngleKind
  | aoa | aod | zoa | zod
  deriving DecidableEq

instance : Fintype Spec.AngleKind := ⟨{.aoa, .aod, .zoa, .zod}, fun x => by cases x <;> simp⟩

/-- An angle of a cluster: kind, batch example, BS, number of the cluster. -/
abbrev Spec.ClusterAngle (B N M : ℕ) := Spec.AngleKind × Fin B × Fin N × Fin M

/-- The numbers drawn for a coupling. -/
def Spec.couplingNumbers (w : RayDraws B N U M) (k : Spec.ClusterAngle B N M) : Fin 20 → ℝ :=
  match k with
  | (.aoa, b, n, m) => w.couplingAoa b n m
  | (.aod, b, n, m) => w.couplingAod b n m
  | (.zoa, b, n, m) => w.couplingZoa b n m
  | (.zod, b, n, m) => w.couplingZod b n m

/-- The numbers drawn for couplings are standard normal and independent. -/
structure Spec.CouplingRandom {Ω : Type*} [MeasurableSpace Ω] (P : Measure Ω) (w : Ω → RayDraws B N U M) : Prop where
  law : ∀ k r, HasLaw (fun ω => couplingNumbers (w ω) k r) (gaussianReal 0 1) P
  indep : iIndepFun (fun k ω => couplingNumbers (w ω) k) P
  within : ∀ k, iIndepFun (fun r ω => couplingNumbers (w ω) k r) P

/-- The four angles of a ray. -/
def Spec.rayAngle (L : LinkRays M) : Spec.AngleKind → Fin M → Fin 20 → ℝ
  | .aoa => L.aoa
  | .aod => L.aod
  | .zoa => L.zoa
  | .zod => L.zod

/-- C146. The couplings of step 8 are independent and uniform: there are random permutations of the 20 rays, one for each kind of angle and each
cluster of each BS and batch example, which are independent of each other and take each of the 20! values with the same probability; and whatever
the draws, the angles of ray `r` are those of ray `σ r` before coupling, for each kind of angle with its own permutation. Nothing else depends on
the coupling. -/
theorem C146_coupling_law (i : RayInputs B N U) {Ω : Type*} [MeasurableSpace Ω] {P : Measure Ω} [IsProbabilityMeasure P] {w : Ω → RayDraws B N U M}
    (hw : CouplingRandom P w) :
    ∃ σ : ClusterAngle B N M → Ω → Equiv.Perm (Fin 20),
      iIndepFun (m := fun _ => ⊤) σ P ∧ (∀ k π, P {ω | σ k ω = π} = ((Nat.factorial 20 : ℕ) : ENNReal)⁻¹) ∧
      ∀ ω b n u (w' : RayDraws B N U M), (∀ k, Monotone (couplingNumbers w' k)) →
        w ω = { w' with couplingAoa := (w ω).couplingAoa, couplingAod := (w ω).couplingAod, couplingZoa := (w ω).couplingZoa, couplingZod := (w ω).couplingZod } →
        (∃ e, raysCall c i w' b n u = .error e ∧ raysCall c i (w ω) b n u = .error e) ∨
        ∃ L' L, raysCall c i w' b n u = .ok L' ∧ raysCall c i (w ω) b n u = .ok L ∧ L.delays = L'.delays ∧ L.powers = L'.powers ∧ L.xpr = L'.xpr ∧
          ∀ kind m r, rayAngle L kind m r = rayAngle L' kind m (σ (kind, b, n, m) ω r) := by
  have haem : ∀ k, AEMeasurable (fun ω => couplingNumbers (w ω) k) P := fun k => aemeasurable_pi_lambda _ fun r => (hw.law k r).aemeasurable
  refine ⟨fun k ω => Tuple.sort (couplingNumbers (w ω) k), ?_, fun k π => ?_, ?_⟩
  · exact @iIndepFun.comp _ _ _ _ _ _ _ (fun _ => ⊤) _ hw.indep (fun _ => Tuple.sort) fun _ => measurable_sort
  · have hmap : P.map (fun ω => couplingNumbers (w ω) k) = Measure.pi fun _ : Fin 20 => gaussianReal 0 1 := by
      have := (iIndepFun_iff_map_fun_eq_pi_map fun r => (hw.law k r).aemeasurable).1 (hw.within k)
      simp only [(hw.law k _).map_eq] at this
      exact this
    haveI := nullSingletonClass_gaussianReal (μ := 0) (v := 1) one_ne_zero
    have := pi_sort_uniform (R := 20) (gaussianReal 0 1) π
    rw [← hmap, Measure.map_apply_of_aemeasurable (haem k) (measurableSet_sort π)] at this
    exact this
  · intro ω b n u w' hmono he
    have hid : ∀ k, Tuple.sort (couplingNumbers w' k) = Equiv.refl _ := fun k => Tuple.sort_eq_refl_iff_monotone.2 (hmono k)
    have h1 := fun m => hid (.aoa, b, n, m)
    have h2 := fun m => hid (.aod, b, n, m)
    have h3 := fun m => hid (.zoa, b, n, m)
    have h4 := fun m => hid (.zod, b, n, m)
    simp only [couplingNumbers] at h1 h2 h3 h4
    beta_reduce
    generalize w ω = v at he ⊢
    have e1 : ∀ m, couplingNumbers v (.aoa, b, n, m) = v.couplingAoa b n m := fun _ => rfl
    have e2 : ∀ m, couplingNumbers v (.aod, b, n, m) = v.couplingAod b n m := fun _ => rfl
    have e3 : ∀ m, couplingNumbers v (.zoa, b, n, m) = v.couplingZoa b n m := fun _ => rfl
    have e4 : ∀ m, couplingNumbers v (.zod, b, n, m) = v.couplingZod b n m := fun _ => rfl
    generalize hk : couplingNumbers v = k at e1 e2 e3 e4 ⊢
    generalize v.couplingAoa = a1 at he e1
    generalize v.couplingAod = a2 at he e2
    generalize v.couplingZoa = a3 at he e3
    generalize v.couplingZod = a4 at he e4
    subst he
    unfold raysCall
    dsimp only
    generalize clusterDelays (M := M) c _ _ _ _ _ = x1
    rcases x1 with e | ⟨d, un⟩
    · exact .inl ⟨e, rfl, rfl⟩
    simp only [bind, Except.bind]
    generalize clusterPowers (M := M) c _ _ _ _ _ _ = x2
    rcases x2 with e | ⟨pw, pa⟩
    · exact .inl ⟨e, rfl, rfl⟩
    dsimp only
    generalize azimuthOfArrival (M := M) c _ _ _ _ _ _ _ = x3
    rcases x3 with e | aoa
    · exact .inl ⟨e, rfl, rfl⟩
    dsimp only
    generalize azimuthOfDeparture (M := M) c _ _ _ _ _ _ _ _ = x4
    rcases x4 with e | aod
    · exact .inl ⟨e, rfl, rfl⟩
    dsimp only
    generalize zenithOfArrival (M := M) c _ _ _ _ _ _ _ _ = x5
    rcases x5 with e | zoa
    · exact .inl ⟨e, rfl, rfl⟩
    dsimp only
    generalize zenithOfDeparture (M := M) c _ _ _ _ _ _ _ _ _ _ _ = x6
    rcases x6 with e | zod
    · exact .inl ⟨e, rfl, rfl⟩
    dsimp only
    generalize crossPolarization (M := M) c _ _ = x7
    rcases x7 with e | x
    · exact .inl ⟨e, rfl, rfl⟩
    refine .inr ⟨_, _, rfl, rfl, rfl, rfl, rfl, ?_⟩
    rintro (_ | _ | _ | _) m r
    · simp only [rayAngle, shuffleAngles, h1, e1, Equiv.refl_apply]
    · simp only [rayAngle, shuffleAngles, h2, e2, Equiv.refl_apply]
    · simp only [rayAngle, shuffleAngles, h3, e3, Equiv.refl_apply]
    · simp only [rayAngle, shuffleAngles, h4, e4, Equiv.refl_apply]

/-! ### Such draws exist -/

/-- Other draws with the couplings replaced. -/
noncomputable def Spec.withCoupling (w' : RayDraws B N U M) (x : ClusterAngle B N M → Fin 20 → ℝ) : RayDraws B N U M :=
  { w' with
    couplingAoa := fun b n m => x (.aoa, b, n, m)
    couplingAod := fun b n m => x (.aod, b, n, m)
    couplingZoa := fun b n m => x (.zoa, b, n, m)
    couplingZod := fun b n m => x (.zod, b, n, m) }

omit [NeZero B] [NeZero N] [NeZero M] in
/-- Draws as required exist. -/
theorem exists_couplingRandom (w' : RayDraws B N U M) : ∃ P : Measure (ClusterAngle B N M → Fin 20 → ℝ), IsProbabilityMeasure P ∧
    CouplingRandom P (withCoupling w') := by
  have e : ∀ (k : ClusterAngle B N M) (x : ClusterAngle B N M → Fin 20 → ℝ), couplingNumbers (withCoupling w' x) k = x k := by
    rintro ⟨_ | _ | _ | _, b, n, m⟩ x <;> rfl
  have m1 := fun k : ClusterAngle B N M => measurePreserving_eval (fun _ : ClusterAngle B N M => Measure.pi fun _ : Fin 20 => gaussianReal 0 1) k
  have m2 := fun r : Fin 20 => measurePreserving_eval (fun _ : Fin 20 => gaussianReal 0 1) r
  refine ⟨Measure.pi fun _ => Measure.pi fun _ => gaussianReal 0 1, inferInstance, fun k r => ?_, ?_, fun k => ?_⟩
  · simp only [e]
    exact ⟨((m2 r).comp (m1 k)).measurable.aemeasurable, ((m2 r).comp (m1 k)).map_eq⟩
  · simp only [e]
    exact iIndepFun_pi (X := fun _ => id) (fun _ => aemeasurable_id)
  · simp only [e]
    refine (iIndepFun_iff_map_fun_eq_pi_map fun r => ((m2 r).comp (m1 k)).measurable.aemeasurable).2 ?_
    refine (m1 k).map_eq.trans ?_
    congr 1
    funext r
    exact ((m2 r).comp (m1 k)).map_eq.symm

/-- The hypotheses of C146 can be met: an urban uplink, two examples, three clusters. -/
example : ∃ (c : Config) (w' : RayDraws 2 1 1 3), mkScenario .urban (exArgs 2000000000 "uplink" 50) = .ok c ∧
    (∀ k, Monotone (couplingNumbers w' k)) ∧
    (∃ P : Measure (ClusterAngle 2 1 3 → Fin 20 → ℝ), IsProbabilityMeasure P ∧ CouplingRandom P (withCoupling w')) ∧
    (∀ x, withCoupling w' x =
      { w' with couplingAoa := (withCoupling w' x).couplingAoa, couplingAod := (withCoupling w' x).couplingAod, couplingZoa := (withCoupling w' x).couplingZoa, couplingZod := (withCoupling w' x).couplingZod }) ∧
    ∀ b, ∃ L, raysCall c (exRay 2 true fun _ => 600000) w' b 0 0 = .ok L := by
  obtain ⟨c, hc⟩ := exArgs_ok .urban true false 50 (by norm_num) (by norm_num)
  refine ⟨c, withCoupling (exRayDraws 2 3) fun _ _ => 0, hc, ?_, exists_couplingRandom _, fun _ => rfl,
    fun b => raysCall_defined hc _ _ b 0 0 2 (by norm_num) (fun _ => rfl) (by norm_num [exRay]) (by norm_num [exRay]) (fun _ => by simp [exRay, log10])⟩
  rintro ⟨_ | _ | _ | _, b, n, m⟩ <;> exact monotone_const

end OpenNTN
