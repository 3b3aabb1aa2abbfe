import Verif.Props.RoundingMovement

/-
The rounding of the path length turns the LoS coefficients of all antennas and times by the same angle: C227.
-/
namespace OpenNTN

open Spec

/-- The complex exponential of the library is accurate for all phases, as with an exact reduction of the argument. -/
def Spec.AccurateCisAll (E : ℝ → ℂ) : Prop := ∀ x, ‖E x - Complex.exp (x * Complex.I)‖ ≤ (2 : ℝ) ^ (-21 : ℤ)

/-- The path length of a link enters the LoS coefficient as a factor only. -/
theorem los_turn (g : CoeffGen) (l : LinkTopo) (hf : 0 < g.fc) (x : ℝ) (u s : ℕ) (t : ℝ) :
    losCoeff g { l with distance3d := x * g.lambda0 / (2 * Real.pi) } u s t =
      Complex.exp (Complex.I * ((x - 2 * Real.pi * l.distance3d / g.lambda0 : ℝ) : ℂ)) * losCoeff g l u s t := by
  have l0 : g.lambda0 ≠ 0 := by unfold CoeffGen.lambda0 speedOfLight; positivity
  have e : 2 * Real.pi * (x * g.lambda0 / (2 * Real.pi)) / g.lambda0 = x := by field_simp
  have k : Complex.exp (Complex.I * (x : ℂ)) = Complex.exp (Complex.I * ((x - 2 * Real.pi * l.distance3d / g.lambda0 : ℝ) : ℂ)) * Complex.exp (Complex.I * (2 * Real.pi * l.distance3d / g.lambda0 : ℝ)) := by
    rw [← Complex.exp_add, ← mul_add, ← Complex.ofReal_add, sub_add_cancel]
  simp only [losCoeff]
  rw [e, k]
  change fieldMatrix g l l.losAoa l.losAod l.losZoa l.losZod (withFaraday g l losPhaseMatrix) u s * arrayOffset g l l.losAoa l.losAod l.losZoa l.losZod u s * dopplerTerm g l l.losAoa l.losZoa l.losAod l.losZod t * _ = _
  ring

section

variable {f : Format} (hf : IEEE f) {A : Arith} (hr : Nearest f A.rnd)

include hf hr

/-- One turn, the same for all antennas and times, explains the error of the path length: apart from it the LoS coefficients are right. -/
theorem C227_common (hp : Nearest double A.py) {T : TrigLib} (hT : AccurateTrig T) {E : ℝ → ℂ} (hE : AccurateCisAll E) (tensor : Bool) (g : CoeffGen) (l : LinkTopo)
    {Ft Fr ef W fs V R : ℝ} (f1 : 10 ^ 9 ≤ g.fc) (f2 : g.fc ≤ 10 ^ 11) (Ft1 : 1 / 10 ^ 3 ≤ Ft) (Ft2 : Ft ≤ 10 ^ 3) (Fr1 : 1 / 10 ^ 3 ≤ Fr) (Fr2 : Fr ≤ 10 ^ 3) (ef0 : 0 ≤ ef) (ef1 : ef ≤ 1 / 100)
    (o1 : ∀ k, |l.rxOri k| ≤ 10) (o2 : ∀ k, |l.txOri k| ≤ 10) (W1 : 1 / 20 ≤ W) (W2 : W ≤ 33) (a1 : |l.losAoa| ≤ 10) (a2 : |l.losAod| ≤ 10) (z1 : |l.losZoa| ≤ 10) (z2 : |l.losZod| ≤ 10)
    (hv : ∀ k, |l.velocity k| ≤ V) (V1 : 1 / 10 ^ 6 ≤ V) (V2 : V ≤ 300) (hs : |l.satSpeed| ≤ 8000) (fs1 : 1 ≤ fs) (fs2 : fs ≤ 10 ^ 11) (R1 : R ≤ 6000) :
    ∃ c : ℂ, ‖c‖ = 1 ∧ ∀ (u s n : ℕ) (tx rx : Fin 2 → ℝ),
      (∀ k, |fieldVector g.tx l.txOri l.losZod l.losAod s k| ≤ Ft ∧ |tx k - fieldVector g.tx l.txOri l.losZod l.losAod s k| ≤ ef * Ft) →
      (∀ k, |fieldVector g.rx l.rxOri l.losZoa l.losAoa u k| ≤ Fr ∧ |rx k - fieldVector g.rx l.rxOri l.losZoa l.losAoa u k| ≤ ef * Fr) →
      (∀ k, |g.rx.antPos u k| ≤ W * (299792458 / g.fc)) → (∀ k, |g.tx.antPos s k| ≤ W * (299792458 / g.fc)) → n ≤ 2 ^ 24 → n / fs ≤ 10 →
      2 * Real.pi * g.fc / 299792458 * (3 * V + if 600000 ≤ l.bsHeight ∧ l.doppler = true then |l.satSpeed| else 0) * (n / fs) ≤ R →
      Close (1e-5 + 2.2 * ef + 3.3e-4 * W + 1.7e-6 * R) (8 * (Ft * Fr))
        (A.losCoeff T (decide (600000 ≤ l.bsHeight)) g.fc tx rx
          (A.arrayOffset T E tensor g.fc l.rxOri (g.rx.antPos u) l.txOri (g.tx.antPos s) l.losAoa l.losAod l.losZoa l.losZod)
          (A.dopplerTerm T E tensor g.fc l.movingRx l.velocity l.satSpeed (decide (600000 ≤ l.bsHeight ∧ l.doppler = true)) l.losAoa l.losZoa l.losAod l.losZod (A.sampleTime fs n))
          (E (A.losPhase tensor g.fc l.distance3d)))
        (c * losCoeff g l u s (n / fs)) := by
  have fc0 : 0 < g.fc := lt_of_lt_of_le (by norm_num) f1
  have f1' : 10 ^ 8 ≤ g.fc := le_trans (by norm_num) f1
  have V0 : 0 < V := lt_of_lt_of_le (by norm_num) V1
  have W0 : 0 ≤ W := le_trans (by norm_num) W1
  have hE' : AccurateCis E := fun x _ => hE x
  refine ⟨Complex.exp (Complex.I * ((A.losPhase tensor g.fc l.distance3d - 2 * Real.pi * l.distance3d / g.lambda0 : ℝ) : ℂ)), norm_cis _, ?_⟩
  intro u s n tx rx htx hrx d1 d2 hn ht hR
  have R0 : 0 ≤ R := by
    refine le_trans ?_ hR
    have : 0 ≤ (if 600000 ≤ l.bsHeight ∧ l.doppler = true then |l.satSpeed| else 0) := by split_ifs <;> simp
    positivity
  rw [← los_turn g l fc0]
  have ha := C223_array hf hr hp hT hE' tensor g l u s f1' f2 o1 o2 d1 d2 W1 (W2.trans (by norm_num)) a1 a2 z1 z2
  have hd := C224_factor hf hr hp hT hE' tensor g l f1' f2 a1 a2 z1 z2 hv V1 V2 hs fs1 fs2 hn ht hR (R1.trans (by norm_num))
  have l0 : g.lambda0 ≠ 0 := by unfold CoeffGen.lambda0 speedOfLight; positivity
  have hc : Close (5e-7) 1 (E (A.losPhase tensor g.fc l.distance3d))
      (Complex.exp (Complex.I * (2 * Real.pi * (A.losPhase tensor g.fc l.distance3d * g.lambda0 / (2 * Real.pi)) / g.lambda0 : ℝ))) := by
    refine ⟨(norm_cis _).le, ?_⟩
    rw [show 2 * Real.pi * (A.losPhase tensor g.fc l.distance3d * g.lambda0 / (2 * Real.pi)) / g.lambda0 = A.losPhase tensor g.fc l.distance3d by field_simp, mul_comm Complex.I]
    exact (hE _).trans (by norm_num)
  have h := C223_los hf hr hT hp g { l with distance3d := A.losPhase tensor g.fc l.distance3d * g.lambda0 / (2 * Real.pi) } u s (n / fs) f1 f2 Ft1 Ft2 Fr1 Fr2 ef0 ef1
    (ea := 3e-4 * W) (ed := 1.5e-6 * R + 5e-7) (ec := 5e-7) (by positivity) (by norm_num at *; linarith) (by positivity) (by norm_num at *; linarith) (by norm_num) (by norm_num) htx hrx ha hd hc
  refine h.mono ?_ le_rfl (by positivity)
  norm_num at *; linarith

omit hf hr in
/-- A common turn cancels in products with conjugates. -/
theorem C227_products {c a' a b' b : ℂ} {e B : ℝ} (hc : ‖c‖ = 1) (e0 : 0 ≤ e) (ha : Close e B a' (c * a)) (hb : Close e B b' (c * b)) :
    ‖a' * (starRingEnd ℂ) b' - a * (starRingEnd ℂ) b‖ ≤ (2 * e + e ^ 2) * B ^ 2 := by
  have B0 : 0 ≤ B := (norm_nonneg _).trans ha.1
  have u : c * (starRingEnd ℂ) c = 1 := by rw [Complex.mul_conj, Complex.normSq_eq_norm_sq, hc]; norm_num
  have k : a' * (starRingEnd ℂ) b' - a * (starRingEnd ℂ) b = (a' - c * a) * (starRingEnd ℂ) b' + c * a * (starRingEnd ℂ) (b' - c * b) := by
    rw [map_sub, map_mul]
    linear_combination (a * (starRingEnd ℂ) b) * u
  rw [k]
  refine (norm_add_le _ _).trans ?_
  rw [norm_mul, norm_mul, Complex.norm_conj, Complex.norm_conj]
  have m1 := mul_le_mul ha.2 hb.norm (norm_nonneg _) (mul_nonneg e0 B0)
  have m2 := mul_le_mul ha.1 hb.2 (norm_nonneg _) B0
  nlinarith

end

/-- A link at 2 GHz with a satellite of 7 km/s in a distance of 786.432 km, for which the phase of the path length is wrong (C147): between the first and the hundredth sample the
rotation is right. -/
example : ∃ (A : Arith) (arr : PanelArray), Nearest Spec.single A.rnd ∧ mkAntenna "single" "V" "omni" 2e9 = .ok arr ∧
    let l := { exSatLink 30 0 with velocity := ![30, -20, 0], satSpeed := 7000, distance3d := 786432, losAoa := 0, losAod := 0, losZoa := 1, losZod := 2 }
    let g : CoeffGen := ⟨2e9, arr, arr⟩
    let E : ℝ → ℂ := fun x => Complex.exp (x * Complex.I)
    let h (n : ℕ) := A.losCoeff TrigLib.exact (decide (600000 ≤ l.bsHeight)) 2e9 (fieldVector arr l.txOri 2 0 0) (fieldVector arr l.rxOri 1 0 0)
      (A.arrayOffset TrigLib.exact E true 2e9 l.rxOri (arr.antPos 0) l.txOri (arr.antPos 0) 0 0 1 2)
      (A.dopplerTerm TrigLib.exact E true 2e9 l.movingRx l.velocity l.satSpeed (decide (600000 ≤ l.bsHeight ∧ l.doppler = true)) 0 1 0 2 (A.sampleTime 100000 n)) (E (A.losPhase true 2e9 786432))
    ‖h 100 * (starRingEnd ℂ) (h 0) - losCoeff g l 0 0 ((100 : ℕ) / 100000) * (starRingEnd ℂ) (losCoeff g l 0 0 ((0 : ℕ) / 100000))‖ ≤
      (2 * (1e-5 + 2.2 * 0 + 3.3e-4 * (1 / 20) + 1.7e-6 * 310) + (1e-5 + 2.2 * 0 + 3.3e-4 * (1 / 20) + 1.7e-6 * 310) ^ 2) * (8 * (1 * 1)) ^ 2 := by
  obtain ⟨A, hr, hp⟩ := exists_arith Spec.single (Or.inl rfl)
  obtain ⟨arr, ho, _, ha, _⟩ := exAntenna_ok
  refine ⟨A, arr, hr, ho, ?_⟩
  intro l g E h
  have p0 : arr.antPos 0 = 0 := ha.1.symm
  have b (k : Fin 3) : |arr.antPos 0 k| ≤ 1 / 20 * (299792458 / 2e9) := by rw [p0]; simp; norm_num
  have fc (o : Fin 3 → ℝ) (θ : ℝ) (k : Fin 2) : |fieldVector arr o θ 0 0 k| ≤ 1 ∧ |fieldVector arr o θ 0 0 k - fieldVector arr o θ 0 0 k| ≤ 0 * 1 :=
    ⟨field_component_le ho (by norm_num) (by simp [Spec.maxGain]) o θ 0 0 k, by simp⟩
  obtain ⟨c, c1, hc⟩ := C227_common (Or.inl rfl) hr hp exact_accurate.1 (E := E) (fun x => by simp [E]) true g l (Ft := 1) (Fr := 1) (ef := 0) (W := 1 / 20) (fs := 100000) (V := 30) (R := 310)
    (by norm_num [g]) (by norm_num [g]) (by norm_num) (by norm_num) (by norm_num) (by norm_num) le_rfl (by norm_num) (by simp [l, exSatLink]) (by simp [l, exSatLink]) le_rfl (by norm_num) (by norm_num [l]) (by norm_num [l])
    (by norm_num [l]) (by norm_num [l]) (fun k => by fin_cases k <;> norm_num [l]) (by norm_num) (by norm_num) (by norm_num [l]) (by norm_num) (by norm_num) (by norm_num)
  have rot (n : ℕ) (hn : n ≤ 100) : 2 * Real.pi * g.fc / 299792458 * (3 * 30 + if 600000 ≤ l.bsHeight ∧ l.doppler = true then |l.satSpeed| else 0) * (n / 100000) ≤ 310 := by
    have pb := Real.pi_lt_d4
    have w1 : (if 600000 ≤ l.bsHeight ∧ l.doppler = true then |l.satSpeed| else 0) ≤ 7000 := by
      split_ifs <;> norm_num [l]
    have w0 : 0 ≤ (if 600000 ≤ l.bsHeight ∧ l.doppler = true then |l.satSpeed| else 0) := by
      split_ifs <;> norm_num [l]
    generalize (if 600000 ≤ l.bsHeight ∧ l.doppler = true then |l.satSpeed| else 0 : ℝ) = w at w0 w1 ⊢
    have q : 2 * Real.pi * g.fc / 299792458 ≤ 42 := by rw [div_le_iff₀ (by norm_num)]; norm_num [g] at pb ⊢; linarith
    have q0 : 0 ≤ 2 * Real.pi * g.fc / 299792458 := by have : 0 ≤ g.fc := by norm_num [g]
                                                       positivity
    have m := mul_le_mul q (show 3 * 30 + w ≤ 7090 by linarith) (by linarith) (by norm_num)
    have n1 : (n : ℝ) / 100000 ≤ 1 / 1000 := by
      have : (n : ℝ) ≤ 100 := by exact_mod_cast hn
      rw [div_le_iff₀ (by norm_num)]; linarith
    have := mul_le_mul m n1 (by positivity) (by norm_num)
    linarith
  have cl (n : ℕ) (hn : n ≤ 100) := hc 0 0 n _ _ (fc l.txOri 2) (fc l.rxOri 1) b b (hn.trans (by norm_num)) (by
    have : (n : ℝ) ≤ 100 := by exact_mod_cast hn
    rw [div_le_iff₀ (by norm_num)]; linarith) (rot n hn)
  exact C227_products c1 (by norm_num) (cl 100 le_rfl) (cl 0 (by norm_num))

end OpenNTN
