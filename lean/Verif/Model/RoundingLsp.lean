import Verif.Model.RoundingClusters
import Verif.Model.Lsp

/-
Large scale parameters, evaluated operation by operation in the order of the code.
-/
namespace OpenNTN

/-- lsp.py 132-142: `r` are correlated variables from the draws `s`. Both matrix products add rounded products in an order that the library chooses;
fused multiplication and addition is left out. The factors are those that `tf.linalg.cholesky` returned. -/
def Arith.IsCorrelated (A : Arith) {U : ℕ} (crossSqrt : Fin U → Fin 7 → Fin 7 → ℝ) (spatialSqrt : Fin 7 → Fin U → Fin U → ℝ) (s r : Fin U → Fin 7 → ℝ) : Prop :=
  ∃ s1 : Fin U → Fin 7 → ℝ, (∀ u i, RoundedSum A.rnd (List.ofFn fun j => A.rnd (crossSqrt u i j * s u j)) (s1 u i)) ∧
    ∀ u i, RoundedSum A.rnd (List.ofFn fun v => A.rnd (s1 v i * spatialSqrt i u v)) (r u i)

/-- `lsp_log`, lsp.py 147, with `-inf` absorbing. -/
noncomputable def Arith.lspLog (A : Arith) (mean : WithBot ℝ) (std s : ℝ) : WithBot ℝ := mean.map fun m => A.rnd (A.rnd (std * s) + m)

/-- `tf.math.pow`, lsp.py 149-150, with base 10; `P` is the function of the library for finite exponents. -/
def powLib (P : ℝ → ℝ) : WithBot ℝ → ℝ
  | ⊥ => 0
  | (x : ℝ) => P x

/-- lsp.py 144-164. -/
noncomputable def Arith.lspOf (A : Arith) (P : ℝ → ℝ) (mean : Fin 7 → WithBot ℝ) (std s : Fin 7 → ℝ) : LspValues :=
  let lsp : Fin 7 → ℝ := fun i => powLib P (A.lspLog (mean i) (std i) (s i))
  { ds := lsp 0
    asd := min (lsp 1) 104
    asa := min (lsp 2) 104
    sf := lsp 3
    kFactor := lsp 4
    zsa := min (lsp 5) 52
    zsd := min (lsp 6) 52 }

end OpenNTN
