import Verif.Lemmas.TableChecks

/- Kernel-checked facts about the whole table. -/
namespace OpenNTN

/-- Condition on thousandths, by parameter. -/
def cellRange : Param → ℤ → Bool
  | .pLoSp => fun n => decide (0 < n) && decide (n < 1000)
  | .pnumClusters => fun n => decide (2000 ≤ n) && decide (n ≤ 4000) && decide (n % 1000 = 0)
  | .prTau => fun n => decide (1000 < n)
  | .pcorrDistDS | .pcorrDistASD | .pcorrDistASA | .pcorrDistSF | .pcorrDistK | .pcorrDistZSA | .pcorrDistZSD =>
    fun n => decide (0 < n)
  | .psigmaDS | .psigmaASD | .psigmaASA | .psigmaSF | .psigmaK | .psigmaZSA | .psigmaZSD | .psigmaXPR =>
    fun n => decide (0 ≤ n)
  | .pzeta => fun n => decide (0 ≤ n)
  | .pcASD | .pcASA | .pcZSA | .pcDS => fun n => decide (0 ≤ n)
  | .pCPhiNLoS | .pCThetaNLoS => fun n => decide (0 < n)
  | .pmuDS => fun n => decide (n < 0)
  | .pmuK => fun n => decide (0 ≤ n)
  | .pmuASA | .pmuZSA | .pmuXPR => fun _ => true
  | _ => fun n => decide (-1000 ≤ n) && decide (n ≤ 1000)

/-- Parameters whose table entries are all finite numbers. -/
def finiteParams : List Param :=
  [.pLoSp, .pnumClusters, .prTau, .pzeta, .pcorrDistDS, .pcorrDistASD, .pcorrDistASA, .pcorrDistSF, .pcorrDistK, .pcorrDistZSA,
   .pcorrDistZSD, .psigmaDS, .psigmaASD, .psigmaASA, .psigmaSF, .psigmaK, .psigmaZSA, .psigmaZSD, .psigmaXPR,
   .pcASD, .pcASA, .pcZSA, .pcDS, .pCPhiNLoS, .pCThetaNLoS, .pmuDS, .pmuK, .pmuASA, .pmuZSA, .pmuXPR,
   .pcorrASDvsDS, .pcorrASAvsDS, .pcorrASAvsSF, .pcorrASDvsSF, .pcorrDSvsSF, .pcorrASDvsASA, .pcorrASDvsK, .pcorrASAvsK,
   .pcorrDSvsK, .pcorrSFvsK, .pcorrZSDvsSF, .pcorrZSAvsSF, .pcorrZSDvsK, .pcorrZSAvsK, .pcorrZSDvsDS, .pcorrZSAvsDS,
   .pcorrZSDvsASD, .pcorrZSAvsASD, .pcorrZSDvsASA, .pcorrZSAvsASA, .pcorrZSDvsZSA]

theorem finite_cells : (finiteParams.all fun p =>
    tableAll fun cl l s u k => cellIs (cellRange p) (lookupAt (tableOf cl l s u) p k)) = true := by decide +kernel

theorem finite_cell {p : Param} (hp : p ∈ finiteParams) :
    tableAll (fun cl l s u k => cellIs (cellRange p) (lookupAt (tableOf cl l s u) p k)) = true :=
  List.all_eq_true.1 finite_cells p hp

theorem requested_cells : (requestedParams.all fun p =>
    tableAll fun cl l s u k => isOk (lookupAt (tableOf cl l s u) p k)) = true := by decide +kernel

/-- Clutter loss: in the NLoS files only. -/
theorem cl_cells : tableAll (fun cl _ s u k => cellIs (fun n => decide (0 < n)) (lookupAt (tableOf cl false s u) .pCL k)) = true := by
  decide +kernel

/-- Departure spread means: finite in uplink; `-inf` with zero deviation in downlink. -/
def departureOk (f : ParamFile) (u : Bool) (k : ℤ) (mu sigma : Param) : Bool :=
  match lookupAt f mu k, lookupAt f sigma k, u with
  | .ok (.m n), .ok (.m _), true => decide (-100000 ≤ n)
  | .ok .ninf, .ok (.m 0), false => true
  | _, _, _ => false

theorem departure_cells : tableAll (fun cl l s u k =>
    departureOk (tableOf cl l s u) u k .pmuASD .psigmaASD && departureOk (tableOf cl l s u) u k .pmuZSD .psigmaZSD) = true := by
  decide +kernel

/-- LoS probability: the same in all tables of a class, non-decreasing in the row. -/
theorem losp_cells : tableAll (fun cl l s u k => rows.all fun k' => bools.all fun s' => bools.all fun u' =>
    !decide (k ≤ k') || decide (milliAt (tableOf cl l s u) .pLoSp k ≤ milliAt (tableOf cl l s' u') .pLoSp k')) = true := by
  decide +kernel

end OpenNTN
