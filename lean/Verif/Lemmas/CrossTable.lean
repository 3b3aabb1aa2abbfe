import Verif.Lemmas.TableChecks

namespace OpenNTN

/-- The cross-correlation matrix in thousandths, from a lookup function. -/
def crossInt (v : Param → ℤ) (i j : Fin 7) : ℤ :=
  crossEntries.foldl (fun s e => s + v e.1 * addMask e.2.1 e.2.2 i j) (if i = j then 1000 else 0)

def isUnit : ℤ → Bool := fun n => decide (-1000 ≤ n) && decide (n ≤ 1000)

/-- All correlation coefficients are in the tables, between -1 and 1. -/
theorem corr_cells (e : Param × Fin 7 × Fin 7) (he : e ∈ crossEntries) :
    tableAll (fun cl l s u k => cellIs isUnit (lookupAt (tableOf cl l s u) e.1 k)) = true := by
  have h : (crossEntries.all fun e =>
      tableAll (fun cl l s u k => cellIs isUnit (lookupAt (tableOf cl l s u) e.1 k))) = true := by decide +kernel
  exact List.all_eq_true.1 h e he

/-- Every matrix has positive pivots: checked on the whole table. -/
theorem cross_pd_table :
    tableAll (fun cl l s u k => pdCheck 7 (crossInt fun p => milliAt (tableOf cl l s u) p k)) = true := by
  decide +kernel

end OpenNTN
