import Mathlib.Analysis.SpecialFunctions.Trigonometric.Basic
import Mathlib.Analysis.SpecialFunctions.Sqrt
import Verif.Model.Num

/-
Model of the conversion functions of utils.py 21-451: subcarrier frequencies, time and frequency vectors, tap range, impulse response to
frequency response, impulse response to taps, taps to frequency response. Floats are exact reals, `tf.complex` is ℂ.
-/
namespace OpenNTN

/-- `tf.range(start, limit)` with a step of one on real numbers: `ceil(limit - start)` entries `start + k`; a start beyond the limit is
an error. -/
noncomputable def tfRange (start limit : ℝ) : Except Err (List ℝ) :=
  if limit < start then .error .invalidArgument
  else .ok ((List.range ⌈limit - start⌉.toNat).map fun k : ℕ => start + k)

/-- `subcarrier_frequencies`, utils.py 59-70. -/
noncomputable def subcarrierFrequencies (num : ℤ) (spacing : ℝ) : Except Err (List ℝ) := do
  let even := decide (num % 2 = 0)
  let start : ℝ := if even then -num / 2 else -(num - 1) / 2
  let limit : ℝ := if even then num / 2 else (num - 1) / 2 + 1
  let f ← tfRange start limit
  .ok (f.map (· * spacing))

/-- `tf.linspace(start, stop, num)` on one axis: evenly spaced values, both ends included; one value if `num = 1`. -/
noncomputable def tfLinspace (start stop : ℝ) (num : ℕ) : List ℝ :=
  (List.range num).map fun k : ℕ => start + k * ((stop - start) / max ((num : ℝ) - 1) 1)

/-- `tf.cast(x, tf.int32)`: truncation towards zero. -/
noncomputable def truncInt (x : ℝ) : ℤ := if 0 ≤ x then ⌊x⌋ else ⌈x⌉

/-- `time_frequency_vector`, utils.py 107-127, for a positive number of samples. -/
noncomputable def timeFrequencyVector (num : ℕ) (duration : ℝ) : List ℝ × List ℝ :=
  let nMin : ℤ := if num % 2 = 0 then truncInt (-(num : ℝ) / 2) else truncInt (-((num : ℝ) - 1) / 2)
  let nMax : ℤ := if num % 2 = 0 then truncInt ((num : ℝ) / 2 - 1) else truncInt (((num : ℝ) + 1) / 2 - 1)
  let t := (tfLinspace nMin nMax num).map (· * duration)
  let df := 1 / duration / num
  let f := (tfLinspace nMin nMax num).map (· * df)
  (t, f)

/-- `time_lag_discrete_time_channel`, utils.py 179-182. The largest lag is cast after adding six. -/
noncomputable def timeLag (bandwidth maxDelay : ℝ) : ℤ × ℤ := (-6, truncInt ((⌈maxDelay * bandwidth⌉ : ℝ) + 6))

/-- Path coefficients: batch example, receiver, receiver antenna, transmitter, transmitter antenna, path, time sample. -/
abbrev PathCoeffs (B Y RA X TA P T : ℕ) := Fin B → Fin Y → Fin RA → Fin X → Fin TA → Fin P → Fin T → ℂ

/-- Path delays: one per link and path (four axes) or one per pair of antennas and path (six axes). -/
inductive PathDelays (B Y RA X TA P : ℕ)
  | link (tau : Fin B → Fin Y → Fin X → Fin P → ℝ)
  | antenna (tau : Fin B → Fin Y → Fin RA → Fin X → Fin TA → Fin P → ℝ)

/-- The delays brought to six axes, utils.py 220-227 and 306-313 (expansion and tiling; the axis of receiver antennas is broadcast). -/
def PathDelays.expand {B Y RA X TA P : ℕ} : PathDelays B Y RA X TA P → Fin B → Fin Y → Fin RA → Fin X → Fin TA → Fin P → ℝ
  | .link tau => fun b y _ x _ p => tau b y x p
  | .antenna tau => tau

/-- Responses: batch example, receiver, receiver antenna, transmitter, transmitter antenna, time sample, frequency or tap. -/
abbrev Response (B Y RA X TA T F : ℕ) := Fin B → Fin Y → Fin RA → Fin X → Fin TA → Fin T → Fin F → ℂ

/-- `tf.math.divide_no_nan`. -/
noncomputable def divideNoNan (x c : ℂ) : ℂ := if c = 0 then 0 else x / c

variable {B Y RA X TA P T F : ℕ}

/-- utils.py 250-253: division by the root of the mean energy over antennas, time samples and frequencies (`axis=(2,4,5,6)`). -/
noncomputable def normalizeOfdm (h : Response B Y RA X TA T F) : Response B Y RA X TA T F := fun b y ra x ta t n =>
  let c : ℝ := (∑ ra : Fin RA, ∑ ta : Fin TA, ∑ t : Fin T, ∑ n : Fin F, ‖h b y ra x ta t n‖ ^ 2) / (RA * TA * T * F)
  divideNoNan (h b y ra x ta t n) (Real.sqrt c : ℝ)

/-- `cir_to_ofdm_channel`, utils.py 184-255. -/
noncomputable def cirToOfdm (freq : Fin F → ℝ) (a : PathCoeffs B Y RA X TA P T) (tau : PathDelays B Y RA X TA P) (normalize : Bool) :
    Response B Y RA X TA T F :=
  let e : Fin B → Fin Y → Fin RA → Fin X → Fin TA → Fin P → Fin F → ℂ := fun b y ra x ta p n =>
    Complex.exp ⟨0, -2 * Real.pi * freq n * tau.expand b y ra x ta p⟩
  let h : Response B Y RA X TA T F := fun b y ra x ta t n => ∑ p, a b y ra x ta p t * e b y ra x ta p n
  if normalize then normalizeOfdm h else h

/-- `tf.experimental.numpy.sinc`. -/
noncomputable def npSinc (x : ℝ) : ℝ := if x = 0 then 1 else Real.sin (Real.pi * x) / (Real.pi * x)

/-- utils.py 339-343: division by the root of the mean over antennas and time samples (`axis=(2,4,5)`) of the energy of all taps. -/
noncomputable def normalizeTime (h : Response B Y RA X TA T F) : Response B Y RA X TA T F := fun b y ra x ta t l =>
  let c : ℝ := (∑ ra : Fin RA, ∑ ta : Fin TA, ∑ t : Fin T, ∑ l : Fin F, ‖h b y ra x ta t l‖ ^ 2) / (RA * TA * T)
  divideNoNan (h b y ra x ta t l) (Real.sqrt c : ℝ)

/-- `cir_to_time_channel`, utils.py 257-345: entry `l` of the last axis is the tap of lag `l_min + l`; the number of entries is
`l_max - l_min + 1`. -/
noncomputable def cirToTime (bandwidth : ℝ) (a : PathCoeffs B Y RA X TA P T) (tau : PathDelays B Y RA X TA P) (lMin lMax : ℤ)
    (normalize : Bool) : Response B Y RA X TA T (lMax + 1 - lMin).toNat :=
  let g : Fin B → Fin Y → Fin RA → Fin X → Fin TA → Fin P → Fin (lMax + 1 - lMin).toNat → ℂ := fun b y ra x ta p l =>
    ⟨npSinc ((lMin + (l.val : ℤ) : ℝ) - tau.expand b y ra x ta p * bandwidth), 0⟩
  let h : Response B Y RA X TA T (lMax + 1 - lMin).toNat := fun b y ra x ta t l => ∑ p, a b y ra x ta p t * g b y ra x ta p l
  if normalize then normalizeTime h else h

/-- The attributes of a resource grid that are used; `num_time_samples` is `num_ofdm_symbols` times the length of a symbol. -/
structure ResourceGrid where
  fftSize : ℕ
  cyclicPrefix : ℕ
  numSymbols : ℕ

/-- Property `num_time_samples` of the grid. -/
def ResourceGrid.numTimeSamples (g : ResourceGrid) : ℕ := (g.fftSize + g.cyclicPrefix) * g.numSymbols

/-- Number of entries of `x[start:stop:step]`, `x` having `len` entries. -/
def sliceLength (len start stop step : ℕ) : ℕ := (min stop len - start + step - 1) / step

/-- `tf.roll` of `N` entries: entry `i` moves to `i + shift`. -/
def rollEntries {α : Type} {N : ℕ} [NeZero N] (x : Fin N → α) (shift : ℤ) : Fin N → α := fun i =>
  x ⟨((i.val - shift) % N).toNat, by
    have h0 : (N : ℤ) ≠ 0 := by exact_mod_cast NeZero.ne N
    have h1 := Int.emod_nonneg ((i.val : ℤ) - shift) h0
    have h2 := Int.emod_lt_of_pos ((i.val : ℤ) - shift) (by have := NeZero.pos N; omega : (0 : ℤ) < N)
    omega⟩

/-- `tf.signal.fft`. -/
noncomputable def fft {N : ℕ} (x : Fin N → ℂ) : Fin N → ℂ := fun n =>
  ∑ k : Fin N, x k * Complex.exp ⟨0, -2 * Real.pi * (k.val * n.val) / N⟩

/-- `time_to_ofdm_channel`, utils.py 430-451, for one series of taps `h` (the leading axes are kept): `T` time samples and `L` taps.
More taps than `fft_size` give a negative amount of padding, which is an error (line 439). -/
noncomputable def timeToOfdm {T L : ℕ} (g : ResourceGrid) [NeZero g.fftSize] (h : Fin T → Fin L → ℂ) (lMin : ℤ) :
    Except Err (Fin (sliceLength T g.cyclicPrefix g.numTimeSamples (g.fftSize + g.cyclicPrefix)) → Fin g.fftSize → ℂ) :=
  if g.fftSize < L then .error .invalidArgument
  else .ok fun s =>
    let row : Fin L → ℂ := fun l =>
      if hs : g.cyclicPrefix + s.val * (g.fftSize + g.cyclicPrefix) < T then h ⟨g.cyclicPrefix + s.val * (g.fftSize + g.cyclicPrefix), hs⟩ l
      else 0
    let padded : Fin g.fftSize → ℂ := fun k => if hk : k.val < L then row ⟨k.val, hk⟩ else 0
    rollEntries (fft (rollEntries padded lMin)) ((g.fftSize / 2 : ℕ) : ℤ)

end OpenNTN
