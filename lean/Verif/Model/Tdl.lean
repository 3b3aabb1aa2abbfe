import Mathlib.Analysis.SpecialFunctions.Complex.Circle
import Mathlib.LinearAlgebra.Matrix.ConjTranspose
import Verif.Model.Num
import Verif.Model.DelayTables

/-
Tapped delay line model: /repo/OpenNTN/tdl.py.
-/
namespace OpenNTN

open Classical Matrix

/-- A stored number as a real: files hold multiples of 1/10000. -/
noncomputable def tableVal (n : ℤ) : ℝ := (n : ℝ) / 10000

/-- Parameters of a loaded TDL model, tdl.py 615-649. -/
structure TdlParams where
  los : Bool
  scaleDelays : Bool
  numClusters : ℕ
  delays : List ℝ
  /-- `_mean_powers` -/
  powers : List ℝ
  /-- `_los_power`, attribute only set for LoS models -/
  losPower : Option ℝ

/-- `_load_parameters`, tdl.py 587-649, after reading the file. -/
noncomputable def tdlLoad (t : TdlTable) : Except Err TdlParams :=
  let delays := t.delays.map tableVal
  let powers := t.powers.map fun p => pow10 (tableVal p / 10)
  if t.los then
    match powers with
    | [] => .error .indexError
    | losPower :: rest =>
      let norm := rest.sum + losPower
      .ok ⟨t.los, t.scaleDelays, t.numClusters, delays.tail, rest.map (· / norm), some (losPower / norm)⟩
  else
    let norm := powers.sum
    .ok ⟨t.los, t.scaleDelays, t.numClusters, delays, powers.map (· / norm), none⟩

/-- The chain of tdl.py 262-286 that selects the file and the delay spread; `none` for the accepted model "E", for which no branch assigns a
file name. -/
noncomputable def tdlFile (model : String) (delaySpread : ℝ) : Except Err (Option TdlTable × ℝ) :=
  if model = "A" then .ok (some tdlA, delaySpread)
  else if model = "B" then .ok (some tdlB, delaySpread)
  else if model = "C" then .ok (some tdlC, delaySpread)
  else if model = "D" then .ok (some tdlD, delaySpread)
  else if model = "E" then .ok (none, delaySpread)
  else if model = "A30" then .ok (some tdlA30, 30e-9)
  else if model = "B100" then .ok (some tdlB100, 100e-9)
  else if model = "C300" then .ok (some tdlC300, 300e-9)
  else .error .assertion

/-- Arguments of the constructor, tdl.py 237-252, other than the correlation matrices. -/
structure TdlArgs where
  model : String
  delaySpread : ℝ
  carrierFrequency : ℝ
  numSinusoids : ℕ := 20
  losAngle : ℝ := Real.pi / 4
  minSpeed : ℝ := 0
  maxSpeed : Option ℝ := none
  basestationHeight : ℝ := 600000
  elevationAngle : ℝ := 80

/-- `_compute_doppler`, tdl.py 547-584. Heights in m, elevation in degree. -/
noncomputable def tdlDoppler (height elevation fc speed : ℝ) : ℝ :=
  let G : ℝ := 6.6743 * 10 ^ (-11 : ℤ)
  let M : ℝ := 5.972 * 10 ^ 24
  let vLight : ℝ := 299792458 * 3.6
  let rEarth : ℝ := 6371
  let hSat := height / 1000
  let vSat := Real.sqrt ((G * M) / ((rEarth * 1000) + (hSat * 1000))) / 1000
  let additional := vSat / vLight * ((rEarth / (rEarth + hSat)) * Real.cos (elevation * (Real.pi / 180))) * fc
  2 * Real.pi * speed / speedOfLight * fc + additional

/-- The constructed object. -/
structure Tdl where
  params : TdlParams
  delaySpread : ℝ
  numSinusoids : ℕ
  losAngle : ℝ
  minDoppler : ℝ
  maxDoppler : ℝ

/-- `__init__`, tdl.py 253-327. A zero number of sinusoids raises at the division of line 317; the kind of error is not distinguished. -/
noncomputable def tdlInit (a : TdlArgs) : Except Err Tdl := do
  let (file, spread) ← tdlFile a.model a.delaySpread
  if ¬ 160000 ≤ a.basestationHeight then .error .assertion
  else if ¬ (0 ≤ a.elevationAngle ∧ a.elevationAngle ≤ 90) then .error .assertion
  else match file with
    | none => .error .nameError
    | some t => do
      let params ← tdlLoad t
      let maxSpeed := a.maxSpeed.getD a.minSpeed
      if ¬ a.minSpeed ≤ maxSpeed then .error .assertion
      else if a.numSinusoids = 0 then .error .invalidArgument
      else .ok ⟨params, spread, a.numSinusoids, a.losAngle,
        tdlDoppler a.basestationHeight a.elevationAngle a.carrierFrequency a.minSpeed,
        tdlDoppler a.basestationHeight a.elevationAngle a.carrierFrequency maxSpeed⟩

/-- Property `delays`, tdl.py 368-374; the same expression at 509-512. -/
noncomputable def Tdl.delays (t : Tdl) : List ℝ :=
  if t.params.scaleDelays then t.params.delays.map (· * t.delaySpread) else t.params.delays.map (· * 1e-9)

/-- Property `mean_powers`, tdl.py 376-384. -/
noncomputable def Tdl.meanPowers (t : Tdl) : Except Err (List ℝ) :=
  if t.params.los then
    match t.params.losPower, t.params.powers with
    | none, _ => .error .attributeError
    | some _, [] => .ok []
    | some l, p :: ps => .ok ((p + l) :: ps)
  else .ok t.params.powers

/-- Property `k_factor`, tdl.py 362-366. -/
noncomputable def Tdl.kFactor (t : Tdl) : Except Err ℝ :=
  if t.params.los then
    match t.params.losPower, t.params.powers with
    | none, _ => .error .attributeError
    | some _, [] => .error .indexError
    | some l, p :: _ => .ok (l / p)
  else .error .assertion

/-- Setter of `delay_spread`, tdl.py 408-413. -/
def Tdl.setDelaySpread (t : Tdl) (v : ℝ) : Tdl := if t.params.scaleDelays then { t with delaySpread := v } else t

/-- Draws of one call, tdl.py 425-495: maximum Doppler per batch example, angles per cluster and sinusoid, phases per antenna pair, cluster and
sinusoid, phase of the specular component. -/
structure TdlDraws (B R T C N : ℕ) where
  doppler : Fin B → ℝ
  theta : Fin B → Fin C → Fin N → ℝ
  phi : Fin B → Fin R → Fin T → Fin C → Fin N → ℝ
  phi0 : Fin B → ℝ

/-- Path coefficients before spatial correlation, tdl.py 417-506, for one batch example, antenna pair, cluster and time step. -/
noncomputable def tdlCoeff {B R T C N : ℕ} (t : Tdl) (powers : Fin C → ℝ) (w : TdlDraws B R T C N) (fs : ℝ) (b : Fin B) (r : Fin R) (x : Fin T) (c : Fin C)
    (s : ℕ) : ℂ :=
  let time := (s : ℝ) / fs
  let alpha := fun k : Fin N => 2 * Real.pi / N * ((k.val : ℝ) + 1) + w.theta b c k
  let arg := fun k => w.doppler b * time * Real.cos (alpha k) + w.phi b r x c k
  let h : ℂ := ((1 / Real.sqrt N : ℝ) : ℂ) * ∑ k, (⟨Real.cos (arg k), Real.sin (arg k)⟩ : ℂ)
  let h := ((Real.sqrt (powers c) : ℝ) : ℂ) * h
  match t.params.losPower with
  | some l =>
    if c.val = 0 then
      let spec := w.doppler b * time * Real.cos t.losAngle + w.phi0 b
      (⟨Real.cos spec, Real.sin spec⟩ : ℂ) * ((Real.sqrt l : ℝ) : ℂ) + h
    else h
  | none => h

/-- What `tf.linalg.cholesky` uses of its argument: the strictly lower triangle and the real parts on the diagonal. The upper triangle is not
read, it is taken to be the conjugate of the lower one. -/
noncomputable def lowerHermitian {ι : Type} [LinearOrder ι] (R : Matrix ι ι ℂ) : Matrix ι ι ℂ := fun i j =>
  if j < i then R i j else if i = j then ((R i i).re : ℂ) else (starRingEnd ℂ) (R j i)

/-- `tf.linalg.cholesky`, used at tdl.py 332, 339, 346: lower triangular with positive diagonal; if there is no such factor the result is not a
number (or an error is raised, depending on the device). -/
noncomputable def cholesky {ι : Type} [Fintype ι] [LinearOrder ι] (R : Matrix ι ι ℂ) : Except Err (Matrix ι ι ℂ) :=
  if h : ∃ L : Matrix ι ι ℂ, (∀ i j, i < j → L i j = 0) ∧ (∀ i, 0 < (L i i).re ∧ (L i i).im = 0) ∧ L * Lᴴ = lowerHermitian R then .ok h.choose
  else .error .notANumber

/-- The correlation matrices given to the constructor and the factors stored, tdl.py 329-350. Simplification: the flattened pair of antenna
numbers of the joint matrix is a pair in lexicographic order. -/
structure TdlCorr (R T : ℕ) where
  spatial : Option (Matrix (Fin R ×ₗ Fin T) (Fin R ×ₗ Fin T) ℂ) := none
  rx : Option (Matrix (Fin R) (Fin R) ℂ) := none
  tx : Option (Matrix (Fin T) (Fin T) ℂ) := none

/-- An optional factor. -/
noncomputable def choleskyOpt {ι : Type} [Fintype ι] [LinearOrder ι] : Option (Matrix ι ι ℂ) → Except Err (Option (Matrix ι ι ℂ))
  | none => .ok none
  | some R => do
    let L ← cholesky R
    .ok (some L)

/-- `h = tf.matmul(rx_sqrt, h)` and `h = tf.matmul(h, tx_sqrt)`, tdl.py 531-534. -/
noncomputable def tdlRxTx {R T : ℕ} (lr : Option (Matrix (Fin R) (Fin R) ℂ)) (lt : Option (Matrix (Fin T) (Fin T) ℂ))
    (h : Matrix (Fin R) (Fin T) ℂ) : Matrix (Fin R) (Fin T) ℂ :=
  let h := match lr with
    | some L => L * h
    | none => h
  match lt with
  | some L => h * L
  | none => h

/-- Spatial correlation, tdl.py 516-535, applied to the coefficients of one batch example, path and time step. -/
noncomputable def tdlCorrelate {R T : ℕ} (c : TdlCorr R T) (h : Matrix (Fin R) (Fin T) ℂ) : Except Err (Matrix (Fin R) (Fin T) ℂ) :=
  match c.spatial with
  | some S => do
    let L ← cholesky S
    .ok fun r t => (L *ᵥ fun p => h (ofLex p).1 (ofLex p).2) (toLex (r, t))
  | none => do
    let lr ← choleskyOpt c.rx
    let lt ← choleskyOpt c.tx
    .ok (tdlRxTx lr lt h)

/-- `__call__`, tdl.py 415-541, result per batch example: coefficients and delays. The shapes of draws and powers must agree: TensorFlow
rejects a number of clusters that differs from the number of powers. -/
noncomputable def tdlCall {B R T N : ℕ} (t : Tdl) (c : TdlCorr R T) (w : TdlDraws B R T t.params.powers.length N) (fs : ℝ) :
    Except Err ((Fin B → Fin t.params.powers.length → ℕ → Except Err (Matrix (Fin R) (Fin T) ℂ)) × (Fin B → List ℝ)) :=
  if t.params.numClusters ≠ t.params.powers.length then .error .invalidArgument
  else .ok (fun b p s => tdlCorrelate c fun r x => tdlCoeff t (fun p => t.params.powers.get p) w fs b r x p s, fun _ => t.delays)

end OpenNTN
