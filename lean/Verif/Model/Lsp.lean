import Verif.Model.Scenario
import Mathlib.LinearAlgebra.Matrix.Notation
import Mathlib.Analysis.SpecialFunctions.Exp
import Mathlib.Analysis.SpecialFunctions.Trigonometric.Arctan

/-
Model of large-scale parameter generation: lsp.py (`LSPGenerator`) and `_compute_lsp_log_mean_std` of the scenario classes.

Batch example and BS are fixed throughout: the code treats these two axes pointwise. The remaining axes are the UT
(`Fin U`) and the seven parameters (`Fin 7`, order DS, ASD, ASA, SF, K, ZSA, ZSD).
-/
namespace OpenNTN

open Classical

/-- The calls of `_add_param` in `_compute_cross_lsp_correlation_matrix`, lsp.py 252-294, in code order. -/
def crossEntries : List (Param × Fin 7 × Fin 7) :=
  [(.pcorrASDvsDS, 0, 1), (.pcorrASAvsDS, 0, 2), (.pcorrASAvsSF, 3, 2), (.pcorrASDvsSF, 3, 1), (.pcorrDSvsSF, 3, 0),
   (.pcorrASDvsASA, 1, 2), (.pcorrASDvsK, 1, 4), (.pcorrASAvsK, 2, 4), (.pcorrDSvsK, 0, 4), (.pcorrSFvsK, 3, 4),
   (.pcorrZSDvsSF, 3, 6), (.pcorrZSAvsSF, 3, 5), (.pcorrZSDvsK, 6, 4), (.pcorrZSAvsK, 5, 4), (.pcorrZSDvsDS, 6, 0),
   (.pcorrZSAvsDS, 5, 0), (.pcorrZSDvsASD, 6, 1), (.pcorrZSAvsASD, 5, 1), (.pcorrZSDvsASA, 6, 2),
   (.pcorrZSAvsASA, 5, 2), (.pcorrZSDvsZSA, 5, 6)]

/-- `get_param` (system_level_scenario.py 727-773) for a parameter that is used in real arithmetic. A `-inf` here would
turn the result into NaN or infinity; this is reported as `notANumber` (the tables never do this for the parameters it is
used for, see C04). -/
noncomputable def Config.getReal (c : Config) (p : Param) (los : Bool) : Except Err ℝ :=
  match c.getParam p los with
  | .error e => .error e
  | .ok ⊥ => .error .notANumber
  | .ok (x : ℝ) => .ok x

/-- `mask` of `_add_param`, lsp.py 242-244: `scatter_nd` adds the updates, so `(m,n)` and `(n,m)` get one each. -/
def addMask {α : Type} [Zero α] [One α] [Add α] (m n i j : Fin 7) : α :=
  (if i = m ∧ j = n then 1 else 0) + (if i = n ∧ j = m then 1 else 0)

/-- `_add_param`, lsp.py 239-250, for one link. -/
noncomputable def addParam (c : Config) (los : Bool) (mat : Except Err (Fin 7 → Fin 7 → ℝ)) (e : Param × Fin 7 × Fin 7) :
    Except Err (Fin 7 → Fin 7 → ℝ) :=
  match mat with
  | .error err => .error err
  | .ok m => match c.getReal e.1 los with
    | .error err => .error err
    | .ok v => .ok fun i j => m i j + v * addMask e.2.1 e.2.2 i j

/-- lsp.py 215-294: the cross-LSP correlation matrix of a link in LoS state `los`. -/
noncomputable def crossLspCorrelation (c : Config) (los : Bool) : Except Err (Fin 7 → Fin 7 → ℝ) :=
  crossEntries.foldl (addParam c los) (.ok fun i j => if i = j then 1 else 0)

/-- The parameter names of lsp.py 358-359, by LSP index. -/
def corrDistParam : Fin 7 → Param :=
  ![.pcorrDistDS, .pcorrDistASD, .pcorrDistASA, .pcorrDistSF, .pcorrDistK, .pcorrDistZSA, .pcorrDistZSD]

/-- lsp.py 335-387: `filtering_matrix` for UTs with LoS states `los` and indoor states `indoor`. The three `tf.where`
are applied in order. -/
def spatialFilter {U : ℕ} (los indoor : Fin U → Bool) (m n : Fin U) : ℝ :=
  let eye : ℝ := if m = n then 1 else 0
  let nlos : Fin U → Bool := fun u => !los u && !indoor u
  let f1 := if los m && los n then 1 else eye
  let f2 := if nlos m && nlos n then 1 else f1
  if indoor m && indoor n then 1 else f2

/-- lsp.py 389-394: spatial correlation of one LSP, `corrDist` being the correlation distance that `get_param` returned for
each UT (the matrix `distance_scaling_matrix` depends on the row only). -/
noncomputable def spatialCorrelation {U : ℕ} (los indoor : Fin U → Bool) (corrDist : Fin U → ℝ) (dist : Fin U → Fin U → ℝ) :
    Fin U → Fin U → ℝ :=
  fun m n => Real.exp (dist m n * (-1 / corrDist m)) * spatialFilter los indoor m n

/-- system_level_scenario.py 834-844: planar distance of every pair of UTs. -/
noncomputable def utDistance2d {U : ℕ} (x y : Fin U → ℝ) (m n : Fin U) : ℝ :=
  Real.sqrt ((x n - x m) ^ 2 + (y n - y m) ^ 2)

/-- lsp.py 358-394: the spatial correlation matrix of LSP `i`, with the correlation distances read by `get_param`. -/
noncomputable def spatialCorrelationOf {U : ℕ} (c : Config) (los indoor : Fin U → Bool) (x y : Fin U → ℝ) (i : Fin 7) :
    Except Err (Fin U → Fin U → ℝ) :=
  match c.getReal (corrDistParam i) true, c.getReal (corrDistParam i) false with
  | .error e, _ => .error e
  | _, .error e => .error e
  | .ok dl, .ok dn => .ok (spatialCorrelation los indoor (fun u => if los u then dl else dn) (utDistance2d x y))

/-- dense_urban_scenario.py 188-216 (identical in the sibling classes): log-domain mean of the seven LSPs of a link.
`tf.maximum(-100, -inf)` is `-100`, but line 208 puts `-inf` back. -/
noncomputable def lspLogMean (c : Config) (los : Bool) : Except Err (Fin 7 → WithBot ℝ) := do
  let ds ← c.getParam .pmuDS los
  let asd ← c.getParam .pmuASD los
  let asa ← c.getParam .pmuASA los
  let k ← c.getParam .pmuK los
  let zsa ← c.getParam .pmuZSA los
  let zsd ← c.getParam .pmuZSD los
  let zsdMax : WithBot ℝ := max ((-100 : ℝ) : WithBot ℝ) zsd
  let zsd' := if zsd ≠ ⊥ then zsdMax else zsd
  return ![ds, asd, asa, ((0 : ℝ) : WithBot ℝ), k.map (· / 10), zsa, zsd']

/-- dense_urban_scenario.py 218-250: log-domain standard deviation of the seven LSPs of a link. The distance dependent
selection of line 232 has the same value in both branches and is kept as such; `nearBp` is the comparison result. -/
noncomputable def lspLogStd (c : Config) (los nearBp : Bool) : Except Err (Fin 7 → ℝ) := do
  let ds ← c.getReal .psigmaDS los
  let asd ← c.getReal .psigmaASD los
  let asa ← c.getReal .psigmaASA los
  let sfNlos ← (· / 10) <$> c.getReal .psigmaSF los
  let sfLosA ← (· / 10) <$> c.getReal .psigmaSF los
  let sfLosB ← (· / 10) <$> c.getReal .psigmaSF los
  let sfLos := if nearBp then sfLosA else sfLosB
  let sf := if los then sfLos else sfNlos
  let k ← (· / 10) <$> c.getReal .psigmaK los
  let zsa ← c.getReal .psigmaZSA los
  let zsd ← c.getReal .psigmaZSD los
  return ![ds, asd, asa, sf, k, zsa, zsd]

/-- dense_urban_scenario.py 255-260: ZoD offset of a link (`tf.atan(x/0) = pi/2` for `x > 0`). The code computes radians. -/
noncomputable def zodOffset (los : Bool) (distance2d : ℝ) : ℝ :=
  let at' (x : ℝ) : ℝ := if distance2d = 0 then Real.pi / 2 else Real.arctan (x / distance2d)
  if los then 0 else at' (35 - 3.5) - at' (35 - 1.5)

/-- `tf.linalg.cholesky` (lsp.py 298, 398), by its specification: the lower triangular factor with positive diagonal. -/
structure IsCholesky {n : ℕ} (A L : Fin n → Fin n → ℝ) : Prop where
  lower : ∀ i j, i < j → L i j = 0
  diag : ∀ i, 0 < L i i
  prod : ∀ i j, ∑ k, L i k * L j k = A i j

/-- lsp.py 132-142: correlated normal variables from the i.i.d. draws `s`. `crossSqrt u` is the factor of UT `u`'s link,
`spatialSqrt i` the factor for LSP `i` (line 139 multiplies a row vector with the transposed factor). -/
def correlateDraws {U : ℕ} (crossSqrt : Fin U → Fin 7 → Fin 7 → ℝ) (spatialSqrt : Fin 7 → Fin U → Fin U → ℝ)
    (s : Fin U → Fin 7 → ℝ) : Fin U → Fin 7 → ℝ :=
  let s1 : Fin U → Fin 7 → ℝ := fun u i => ∑ j, crossSqrt u i j * s u j
  fun u i => ∑ v, s1 v i * spatialSqrt i u v

/-- `lsp_log_std*s + lsp_log_mean`, lsp.py 147, with `-inf` absorbing. -/
noncomputable def lspLog (mean : WithBot ℝ) (std s : ℝ) : WithBot ℝ := mean.map (std * s + ·)

/-- The large scale parameters of a link, lsp.py 21-57 (class `LSP`). -/
structure LspValues where
  ds : ℝ
  asd : ℝ
  asa : ℝ
  sf : ℝ
  kFactor : ℝ
  zsa : ℝ
  zsd : ℝ

/-- lsp.py 144-164: LSPs of a link from its correlated normal variables. -/
noncomputable def lspOf (mean : Fin 7 → WithBot ℝ) (std s : Fin 7 → ℝ) : LspValues :=
  let lsp : Fin 7 → ℝ := fun i => pow10X (lspLog (mean i) (std i) (s i))
  { ds := lsp 0
    asd := min (lsp 1) 104
    asa := min (lsp 2) 104
    sf := lsp 3
    kFactor := lsp 4
    zsa := min (lsp 5) 52
    zsd := min (lsp 6) 52 }

/-- What `LSPGenerator.topology_updated_callback` (lsp.py 169-177) stores for the next samples, for one batch example and BS:
the factors of the correlation matrices, next to the means and deviations of the scenario. -/
structure LspSetup {U : ℕ} (c : Config) (los indoor : Fin U → Bool) (x y : Fin U → ℝ) (nearBp : Fin U → Bool) where
  crossSqrt : Fin U → Fin 7 → Fin 7 → ℝ
  spatialSqrt : Fin 7 → Fin U → Fin U → ℝ
  mean : Fin U → Fin 7 → WithBot ℝ
  std : Fin U → Fin 7 → ℝ
  cross_ok : ∀ u, ∃ R, crossLspCorrelation c (los u) = .ok R ∧ IsCholesky R (crossSqrt u)
  spatial_ok : ∀ i, ∃ C, spatialCorrelationOf c los indoor x y i = .ok C ∧ IsCholesky C (spatialSqrt i)
  mean_ok : ∀ u, lspLogMean c (los u) = .ok (mean u)
  std_ok : ∀ u, lspLogStd c (los u) (nearBp u) = .ok (std u)

/-- `LSPGenerator.__call__`, lsp.py 120-167, from the normal draws `s`. -/
noncomputable def LspSetup.sample {U : ℕ} {c : Config} {los indoor : Fin U → Bool} {x y : Fin U → ℝ} {nearBp : Fin U → Bool}
    (S : LspSetup c los indoor x y nearBp) (s : Fin U → Fin 7 → ℝ) (u : Fin U) : LspValues :=
  lspOf (S.mean u) (S.std u) (correlateDraws S.crossSqrt S.spatialSqrt s u)

end OpenNTN
