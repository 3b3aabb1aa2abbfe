import Verif.Lemmas.CrossCorr
import Verif.Lemmas.ConfigTable
import Verif.Spec.Standard

/- Kernel-checked comparison of the parameter tables with the recorded values of the standard. -/
namespace OpenNTN

/-- The area that a scenario class stands for. -/
def areaOf : ScenarioClass → Spec.Area
  | .denseUrban => .denseUrban
  | .urban => .urban
  | .subUrban => .subUrban

/-- Comparison of a table cell with a record, up to `tol` thousandths. -/
def agree (tol : ℤ) : Except Err Cell → Option (Option ℤ) → Bool
  | .ok (.m n), some (some r) => decide (|n - r| ≤ tol)
  | .ok .ninf, some none => true
  | _, _ => false

/-- Comparison for a record without infinities. -/
def same : Except Err Cell → Option ℤ → Bool
  | .ok (.m n), some r => decide (n = r)
  | _, _ => false

/-- The parameters behind the recorded large-scale distributions, by number. -/
def muParam : Fin 7 → Param := ![.pmuDS, .pmuASD, .pmuASA, .pmuDS, .pmuK, .pmuZSA, .pmuZSD]
def sigmaParam : Fin 7 → Param := ![.psigmaDS, .psigmaASD, .psigmaASA, .psigmaSF, .psigmaK, .psigmaZSA, .psigmaZSD]

/-- Cells in which the test suite and the parameter files differ: mean or deviation, area, LoS, S band, uplink, row, number. -/
def differing : List (Bool × Spec.Area × Bool × Bool × Bool × ℤ × ℕ) :=
  [(true, .urban, true, true, true, 60, 1), (false, .urban, true, true, true, 60, 1),
   (true, .denseUrban, false, true, true, 30, 1), (false, .denseUrban, false, true, true, 30, 1),
   (true, .denseUrban, false, false, true, 50, 6), (false, .denseUrban, false, false, true, 50, 6),
   (false, .subUrban, false, true, false, 40, 2), (false, .subUrban, false, true, true, 40, 2),
   (true, .subUrban, false, false, true, 80, 6)]

def cellTol (mean : Bool) (ar : Spec.Area) (l s u : Bool) (k : ℤ) (i : ℕ) : ℤ :=
  if (mean, ar, l, s, u, k, i) ∈ differing then 100 else 0

theorem mean_table (i : Fin 7) (hi : i ≠ 3) : tableAll (fun cl l s u k => (decide (i = 4) && !l) ||
    agree (cellTol true (areaOf cl) l s u k i) (lookupAt (tableOf cl l s u) (muParam i) k)
      (Spec.atRow (Spec.meanRec (areaOf cl) l s u i) k)) = true := by
  revert i; decide +kernel

theorem dev_table (i : Fin 7) (hi : i ≠ 3) : tableAll (fun cl l s u k => (decide (i = 4) && !l) ||
    agree (cellTol false (areaOf cl) l s u k i) (lookupAt (tableOf cl l s u) (sigmaParam i) k)
      (Spec.atRow (Spec.devRec (areaOf cl) l s u i) k)) = true := by
  revert i; decide +kernel

theorem cross_table : tableAll (fun cl l s u k => (Spec.crossRec (areaOf cl) l s u).all fun e =>
    decide (Spec.atRow e.2.2 k = some (crossInt (fun p => milliAt (tableOf cl l s u) p k) (Fin.ofNat 7 e.1) (Fin.ofNat 7 e.2.1))) &&
    decide (Spec.atRow e.2.2 k = some (crossInt (fun p => milliAt (tableOf cl l s u) p k) (Fin.ofNat 7 e.2.1) (Fin.ofNat 7 e.1)))) = true := by
  decide +kernel

theorem cross_pairs : ∀ (cl : ScenarioClass), ∀ l s u : Bool, ∀ i j : Fin 7, i ≠ j →
    ((Spec.crossRec (areaOf cl) l s u).any fun e => decide ((e.1 = i ∧ e.2.1 = j) ∨ (e.1 = j ∧ e.2.1 = i))) = true := by
  intro cl; cases cl <;> decide +kernel

theorem corrDist_table (i : Fin 7) : tableAll (fun cl l s u k =>
    same (lookupAt (tableOf cl l s u) (corrDistParam i) k) ((Spec.corrDistRec l)[(i : ℕ)]?)) = true := by
  revert i; decide +kernel

theorem losProb_table : tableAll (fun cl l s u k =>
    same (lookupAt (tableOf cl l s u) .pLoSp k) (Spec.atRow (Spec.losProbRec (areaOf cl)) k)) = true := by decide +kernel

theorem rTau_table : tableAll (fun cl l s u k =>
    same (lookupAt (tableOf cl l s u) .prTau k) (Spec.atRow (Spec.rTauRec (areaOf cl) l s) k)) = true := by decide +kernel

theorem clutter_table : tableAll (fun cl _ s u k =>
    same (lookupAt (tableOf cl false s u) .pCL k) (Spec.atRow (Spec.clutterRec (areaOf cl) s) k)) = true := by decide +kernel

theorem shadow_table : tableAll (fun cl l s u k =>
    same (lookupAt (tableOf cl l s u) .psigmaSF k) (Spec.atRow (Spec.shadowRec (areaOf cl) l s) k)) = true := by decide +kernel

end OpenNTN
