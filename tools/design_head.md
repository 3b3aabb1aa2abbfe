# Formal model of OpenNTN: design and trusted base

Source of truth: `/repo` (ant-uni-bremen/OpenNTN, pinned commit), read as text. Nothing was built or run.
`DESIGN.md` is assembled by `tools/design.py` from `tools/design_head.md`, `tools/how.txt`, `tools/claims.py` and `properties.jsonl`.

## Layout

| Path | Content |
|---|---|
| `properties.jsonl` | the properties, in API terms |
| `lean/Verif/Model/*.lean` | model of the code, function by function; each definition cites file and lines |
| `lean/Verif/Spec/*.lean` | small independent specifications (no use of model helpers) |
| `lean/Verif/Lemmas/*.lean` | helper lemmas |
| `lean/Verif/Props/*.lean` | the property theorems, with an `example` beside each showing its hypotheses are met |
| `MANIFEST.json` | property -> theorem names, status |
| `seeded/LOG.jsonl` | results of editing the model to contain realistic bugs. `failed_directly` is what Lean rejected in the run; `theorems_failed` is inferred from it by `tools/seedlog.py`, which follows names through the current sources, so it may list theorems that were added after the run |
| `tools/*.py` | generators (property list, parameter tables, manifest, this file, seeded bugs); not trusted, their output is committed and checked |

## Trusted base

* Lean 4 kernel. Every theorem of the manifest depends on a subset of `propext`, `Classical.choice`, `Quot.sound` (checked with
  `#print axioms` for each). No own axioms, no `sorry`, no `native_decide`, no `bv_decide`.
* The reading of the Python code into the model. Each definition's comment cites the lines it was read from and names simplifications.
* Floating point is modelled by exact real (complex) arithmetic, except in C147-C149, C168, C184, C200 and C210-C231, where the expressions of `Model/Rounding`, `Model/RoundingDrop`, `Model/RoundingUts`, `Model/RoundingTaps`, `Model/RoundingAngles`, `Model/RoundingClusters`, `Model/RoundingLocal`, `Model/RoundingArray`, `Model/RoundingField`, `Model/RoundingAperture`, `Model/RoundingTdl`, `Model/RoundingPattern`, `Model/RoundingLsp`, `Model/RoundingDirections`, `Model/RoundingGain`, `Model/RoundingRays`, `Model/RoundingMovement`, `Model/RoundingPaths`, `Model/RoundingOfdm` and `Model/RoundingNormalize` are rounded after each operation (IEEE 754 rounding to nearest, `Spec/Rounding`, with any choice between equally near numbers). Elsewhere rounding, overflow and underflow are outside the model.
  `-inf` values of the parameter tables are modelled explicitly (`⊥ : WithBot ℝ`); division by zero, roots and logarithms of numbers outside
  their domain are the explicit error `notANumber` wherever the code can get there.
* TensorFlow / NumPy operations are modelled by their mathematical meaning on index functions. A tensor of shape `[B,N,U]` is a function of indices.
  Where shapes decide success or failure, the failure is modelled explicitly; `Shapes` runs the pipeline on shapes alone.
* Random generators: each draw is a universally quantified argument constrained only by its documented range
  (e.g. uniform on `[0,1)`), so theorems hold for every random stream. Statements about distributions are exact statements about the map from
  draws to outputs: the covariance of a linear image of independent standard normal draws is the quadratic form of its matrix, a mean over uniform
  phases is an integral. Where a statement is about a probability, the draws are random variables on an arbitrary probability space.
* `tf.linalg.cholesky`, FFT, argsort/sort, `tf.linalg.sqrtm` are modelled by their specification (existence of the factor is proved).
* `scipy.special.jv`/`tf.math.bessel_j1` is modelled by Bessel's integral; C98 proves that it solves Bessel's equation.
* Exceptions are values (`Except Err`); assertion failures are explicit branches.

## What is modelled

| Python | Lean |
|---|---|
| `system_level_scenario.py`, `*_scenario.py` (construction, tables, `get_param`, `set_topology`, LoS, distances, angles, losses) | `Scenario`, `Tables`, `Topology`, `Geometry`, `Pathloss` |
| `system_level_channel.py`, `dense_urban.py`, `urban.py`, `sub_urban.py` | `Channel` (state), `Cir` (tensors), `Pathloss` (step 12) |
| `system_level_channel.py` `show_topology` | `Show` |
| `lsp.py` | `Lsp`, `Pathloss`, `O2i` |
| `rays.py` | `Rays` |
| `channel_coefficients.py` | `Coeff`, `Cir` |
| `antenna.py` | `Antenna`, `ArrayAttrs` (read-only properties), `Gain`, `ShowArray`, `ShowElement` |
| `utils.py` | `Ofdm`, `TopoGen`, `CorrMat`, `Pathloss`, `Additional` (the uncalled `compute_pathloss_additional`), `Coeff` (orbit speed), `O2i` (Doppler helper) |
| `tdl.py`, `cdl.py`, `models/*.json` | `Tdl`, `Cdl`, `Tables`, `DelayTables` |
| `post_install.py` | `Install` |
| import statements of all files of the package, with Python's import system; Sionna's own files only as the set of names present at the inserted line | `Imports` |
| `install.sh`, `install_legacy.sh`, as their effect on files | `InstallScript` |
| `setup.py`, `MANIFEST.in`, as the selection of installed files | `Packaging` |
| `dense_urban.py`, `urban.py`, `sub_urban.py`, Python calls | `Construct` |
| `antenna.py`, `tdl.py`, `utils.py`: Python calls of constructors and of the topology generator | `ConstructArray` |
| the simulations of `example/*.ipynb`, up to the impulse response | `Simulation` |
| rounding of the LoS phase, the Doppler phase, the slant range, the free space path loss, the comparison of wavelengths, and the phases and sinc arguments of the conversions to frequency and time, the centre point of dropped UTs, their places and distances, the range of taps, the angles of rays, the delays and powers of clusters, the change to local coordinates, the phases between antennas, the change of field components, the pattern of the circular aperture, the taps of TDL models, the patterns with lobes, large scale parameters, directions of clusters, combination of LoS and NLoS, gain, assembly of coefficients, movement, division into paths, conversions, normalization | `Rounding`, `RoundingDrop`, `RoundingUts`, `RoundingTaps`, `RoundingAngles`, `RoundingClusters`, `RoundingLocal`, `RoundingArray`, `RoundingField`, `RoundingAperture`, `RoundingTdl`, `RoundingPattern`, `RoundingLsp`, `RoundingDirections`, `RoundingGain`, `RoundingRays`, `RoundingMovement`, `RoundingPaths`, `RoundingOfdm`, `RoundingNormalize` |
| shapes of all tensors from `set_topology` to the returned channel, histories with changing shapes | `ShapeOps`, `Shapes` |
| shapes of the topology generator, the conversions to frequency and time, the TDL call | `ShapesConvert` |
| element types of tensors in topology generation, `set_topology`, TDL construction and antenna patterns; in a call of the channel and TDL models and the conversions of impulse responses | `Precision`, `PrecisionCir` |

## Not modelled

* Sionna's base classes (`Object`, precision handling), TensorFlow graph/eager differences, GPU behaviour, element types outside the functions of `Precision` and `PrecisionCir`.
* Plotting, except what `show_topology` and the `show` functions of elements, panels and arrays draw where (`Show`, `ShowArray`, `ShowElement`).
* `pip` and `setuptools` beyond the selection of files (`Packaging`), and the downloads of the scripts.
* Performance, memory, rounding outside the expressions of `Rounding`, `RoundingDrop`, `RoundingUts`, `RoundingTaps`, `RoundingAngles`, `RoundingClusters`, `RoundingLocal`, `RoundingArray`, `RoundingField`, `RoundingAperture`, `RoundingTdl`, `RoundingPattern`, `RoundingLsp`, `RoundingDirections`, `RoundingGain`, `RoundingRays`, `RoundingMovement`, `RoundingPaths`, `RoundingOfdm` and `RoundingNormalize`.

## Per property: what is modelled and how it is proved

The column Model names modules under `Verif/Model`, the column Proof one under `Verif/Props`.

| Id | Title | Status | Model | Proof | How |
|---|---|---|---|---|---|
@TABLE@

## Disagreements between code and property

In each of these the code violates the property. The negation of the full statement (`Cxx_statement`) is proved with a concrete witness as
`Cxx_violated`, and the `_partial` theorem says what holds nevertheless.

@DIS@
