# Formal model of OpenNTN: design and trusted base

Source of truth: `/repo` (ant-uni-bremen/OpenNTN, pinned commit), read as text. Nothing was built or run.
`DESIGN.md` is assembled by `tools/design.py` from `tools/design_head.md`, `tools/how.txt`, `tools/claims.py` and `properties.jsonl`.

## Layout

| Path | Content |
|---|---|
| `properties.jsonl` | the properties, in API terms |
| `lean/Verif/Model/*.lean` | model of the code, function by function; each definition cites file and lines |
| `lean/Verif/Spec/*.lean` | small independent specifications (no use of model helpers) |
| `lean/Verif/Lemmas/*.lean` | helper lemmas |
| `lean/Verif/Props/*.lean` | the property theorems, with an `example` beside each showing its hypotheses are met |
| `MANIFEST.json` | property -> theorem names, status |
| `seeded/LOG.jsonl` | results of editing the model to contain realistic bugs. `failed_directly` is what Lean rejected in the run; `theorems_failed` is inferred from it by `tools/seedlog.py`, which follows names through the current sources, so it may list theorems that were added after the run |
| `tools/*.py` | generators (property list, parameter tables, manifest, this file, seeded bugs); not trusted, their output is committed and checked |

## Trusted base

* Lean 4 kernel. Every theorem of the manifest depends on a subset of `propext`, `Classical.choice`, `Quot.sound` (checked with
  `#print axioms` for each). No own axioms, no `sorry`, no `native_decide`, no `bv_decide`.
* The reading of the Python code into the model. Each definition's comment cites the lines it was read from and names simplifications.
* Floating point is modelled by exact real (complex) arithmetic, except in C147-C149, C168, C184, C200 and C210-C231, where the expressions of `Model/Rounding`, `Model/RoundingDrop`, `Model/RoundingUts`, `Model/RoundingTaps`, `Model/RoundingAngles`, `Model/RoundingClusters`, `Model/RoundingLocal`, `Model/RoundingArray`, `Model/RoundingField`, `Model/RoundingAperture`, `Model/RoundingTdl`, `Model/RoundingPattern`, `Model/RoundingLsp`, `Model/RoundingDirections`, `Model/RoundingGain`, `Model/RoundingRays`, `Model/RoundingMovement`, `Model/RoundingPaths`, `Model/RoundingOfdm` and `Model/RoundingNormalize` are rounded after each operation (IEEE 754 rounding to nearest, `Spec/Rounding`, with any choice between equally near numbers). Elsewhere rounding, overflow and underflow are outside the model.
  `-inf` values of the parameter tables are modelled explicitly (`⊥ : WithBot ℝ`); division by zero, roots and logarithms of numbers outside
  their domain are the explicit error `notANumber` wherever the code can get there.
* TensorFlow / NumPy operations are modelled by their mathematical meaning on index functions. A tensor of shape `[B,N,U]` is a function of indices.
  Where shapes decide success or failure, the failure is modelled explicitly; `Shapes` runs the pipeline on shapes alone.
* Random generators: each draw is a universally quantified argument constrained only by its documented range
  (e.g. uniform on `[0,1)`), so theorems hold for every random stream. Statements about distributions are exact statements about the map from
  draws to outputs: the covariance of a linear image of independent standard normal draws is the quadratic form of its matrix, a mean over uniform
  phases is an integral. Where a statement is about a probability, the draws are random variables on an arbitrary probability space.
* `tf.linalg.cholesky`, FFT, argsort/sort, `tf.linalg.sqrtm` are modelled by their specification (existence of the factor is proved).
* `scipy.special.jv`/`tf.math.bessel_j1` is modelled by Bessel's integral; C98 proves that it solves Bessel's equation.
* Exceptions are values (`Except Err`); assertion failures are explicit branches.

## What is modelled

| Python | Lean |
|---|---|
| `system_level_scenario.py`, `*_scenario.py` (construction, tables, `get_param`, `set_topology`, LoS, distances, angles, losses) | `Scenario`, `Tables`, `Topology`, `Geometry`, `Pathloss` |
| `system_level_channel.py`, `dense_urban.py`, `urban.py`, `sub_urban.py` | `Channel` (state), `Cir` (tensors), `Pathloss` (step 12) |
| `system_level_channel.py` `show_topology` | `Show` |
| `lsp.py` | `Lsp`, `Pathloss`, `O2i` |
| `rays.py` | `Rays` |
| `channel_coefficients.py` | `Coeff`, `Cir` |
| `antenna.py` | `Antenna`, `ArrayAttrs` (read-only properties), `Gain`, `ShowArray`, `ShowElement` |
| `utils.py` | `Ofdm`, `TopoGen`, `CorrMat`, `Pathloss`, `Additional` (the uncalled `compute_pathloss_additional`), `Coeff` (orbit speed), `O2i` (Doppler helper) |
| `tdl.py`, `cdl.py`, `models/*.json` | `Tdl`, `Cdl`, `Tables`, `DelayTables` |
| `post_install.py` | `Install` |
| import statements of all files of the package, with Python's import system; Sionna's own files only as the set of names present at the inserted line | `Imports` |
| `install.sh`, `install_legacy.sh`, as their effect on files | `InstallScript` |
| `setup.py`, `MANIFEST.in`, as the selection of installed files | `Packaging` |
| `dense_urban.py`, `urban.py`, `sub_urban.py`, Python calls | `Construct` |
| `antenna.py`, `tdl.py`, `utils.py`: Python calls of constructors and of the topology generator | `ConstructArray` |
| the simulations of `example/*.ipynb`, up to the impulse response | `Simulation` |
| rounding of the LoS phase, the Doppler phase, the slant range, the free space path loss, the comparison of wavelengths, and the phases and sinc arguments of the conversions to frequency and time, the centre point of dropped UTs, their places and distances, the range of taps, the angles of rays, the delays and powers of clusters, the change to local coordinates, the phases between antennas, the change of field components, the pattern of the circular aperture, the taps of TDL models, the patterns with lobes, large scale parameters, directions of clusters, combination of LoS and NLoS, gain, assembly of coefficients, movement, division into paths, conversions, normalization | `Rounding`, `RoundingDrop`, `RoundingUts`, `RoundingTaps`, `RoundingAngles`, `RoundingClusters`, `RoundingLocal`, `RoundingArray`, `RoundingField`, `RoundingAperture`, `RoundingTdl`, `RoundingPattern`, `RoundingLsp`, `RoundingDirections`, `RoundingGain`, `RoundingRays`, `RoundingMovement`, `RoundingPaths`, `RoundingOfdm`, `RoundingNormalize` |
| shapes of all tensors from `set_topology` to the returned channel, histories with changing shapes | `ShapeOps`, `Shapes` |
| shapes of the topology generator, the conversions to frequency and time, the TDL call | `ShapesConvert` |
| element types of tensors in topology generation, `set_topology`, TDL construction and antenna patterns; in a call of the channel and TDL models and the conversions of impulse responses | `Precision`, `PrecisionCir` |

## Not modelled

* Sionna's base classes (`Object`, precision handling), TensorFlow graph/eager differences, GPU behaviour, element types outside the functions of `Precision` and `PrecisionCir`.
* Plotting, except what `show_topology` and the `show` functions of elements, panels and arrays draw where (`Show`, `ShowArray`, `ShowElement`).
* `pip` and `setuptools` beyond the selection of files (`Packaging`), and the downloads of the scripts.
* Performance, memory, rounding outside the expressions of `Rounding`, `RoundingDrop`, `RoundingUts`, `RoundingTaps`, `RoundingAngles`, `RoundingClusters`, `RoundingLocal`, `RoundingArray`, `RoundingField`, `RoundingAperture`, `RoundingTdl`, `RoundingPattern`, `RoundingLsp`, `RoundingDirections`, `RoundingGain`, `RoundingRays`, `RoundingMovement`, `RoundingPaths`, `RoundingOfdm` and `RoundingNormalize`.

## Per property: what is modelled and how it is proved

The column Model names modules under `Verif/Model`, the column Proof one under `Verif/Props`.

| Id | Title | Status | Model | Proof | How |
|---|---|---|---|---|---|
| C01 | Constructor accepts exactly the documented configurations | proved | Scenario | Config | Constructor as `Except`, branch by branch; success is equivalent to an independent admissibility predicate, and every failure is the right exception. |
| C02 | Elevation angle is rounded to the nearest table row | proved | Num, Scenario | Config | Python's round half to even on the reals; floor arithmetic. |
| C03 | Every parameter that the simulation needs is in the tables | proved | Tables, Scenario | Config | The JSON tables are data; presence of every needed name is checked in the kernel for all tables and rows and lifted to all real configurations by C02. |
| C04 | Table values are physically admissible | proved | Tables, Scenario | Config | As C03, for the admissible ranges of the values. |
| C05 | Large-scale correlation matrix admits a Cholesky factor | proved | Scenario, Lsp | Config | Matrix assembled as in the code; exact rational elimination with positive pivots over all tables (kernel), lifted to positive definiteness over the reals; the Cholesky factor is constructed. |
| C06 | Every pair of large-scale parameters uses its own correlation coefficient | proved | Lsp | Config | Entry by entry comparison with a list of pairs written from the standard. For tables of any content: the matrix holds the coefficient stored for each pair. |
| C07 | Direction, band and scenario select the right parameter file | proved | Scenario | Config | Decision logic, injectivity of the file choice. |
| C08 | LoS becomes at least as likely at higher elevation | proved | Tables, Scenario | Config | Kernel check of the LoS probability tables, lifted by monotonicity of rounding. |
| C09 | Angular scaling constant matches the cluster count | partial | Tables, Rays | Config | Scaling constant against the tabulated function of the cluster number. |
| C10 | Topology arguments persist until replaced | partial | Topology | Topology | State machine over unbounded histories; refinement to "latest given value" per argument. |
| C11 | A topology call fails exactly when a required argument was never given | partial | Topology | Topology | Assertion raised iff an argument was never given, over all histories. |
| C12 | Derived geometry is never stale | partial | Topology | Topology | Derived attributes equal a recomputation from the latest arguments (refinement). |
| C13 | Atmospheric parameters persist until replaced | partial | Topology | Topology | Same refinement for atmosphere parameters. |
| C14 | Gas and scintillation losses reflect the current atmosphere | partial | Topology | Topology | Losses equal a recomputation from current parameters. |
| C15 | LoS request semantics and indoor exclusion | proved | Topology | Topology | Invariant over histories; Bernoulli draw compared with the tabulated probability. |
| C16 | Large-scale parameters are frozen between topology changes | proved | Channel | Channel | Channel model as state machine with explicit random stream; induction over calls. |
| C17 | Fresh large-scale parameters on every realisation when requested | proved | Channel | Channel | As C16: new draws after every relocation. |
| C18 | Channel generation is possible exactly after a successful topology call | partial | Channel | Channel | Success of generation for every history with complete topology. |
| C19 | Atmosphere is configurable through the channel model | partial | Channel | Channel | Reachable atmospheres of a channel object. |
| C20 | Planar distances are Euclidean | proved | Geometry | Geometry | Euclidean norm in the plane; metric axioms. |
| C21 | Slant range obeys the spherical-Earth geometry | proved | Geometry | Geometry | Slant range solves the law of cosines with the Earth's centre; uniqueness of the positive root. |
| C22 | Each batch example uses its own satellite altitude | partial | Topology | Topology | Per batch example altitude. |
| C23 | LoS departure angles point from BS to UT | proved | Geometry | Geometry | Spherical angles determine the unit vector from BS to UT. |
| C24 | LoS arrival angles point from UT to BS | partial | Geometry | Geometry | Same for arrival. |
| C25 | Indoor/outdoor distance split | proved | Geometry | Geometry | Indoor and outdoor parts add up, ranges. |
| C26 | Large-scale parameters stay in their physical ranges | proved | Lsp | Lsp | Real analysis on the map from draws to parameters; caps and positivity, `-inf` explicit. |
| C27 | Large-scale parameters have the tabulated mean, deviation and correlation | partial | Lsp | Lsp | Law of the parameters as an affine image of the normal draws: means, deviations, correlations as exact quadratic forms. |
| C28 | Spatial correlation only couples UTs in the same state | proved | Lsp | Lsp | Entrywise: symmetric, unit diagonal, exponential in the planar distance with the correlation distance of the common state, zero across states. |
| C29 | Spatial correlation matrix is positive semi-definite | proved | Lsp, Lemmas/ExpKernel | Lsp | exp(-r/D) is a positive definite kernel in the plane: min-kernel by induction, average over directions, Schur products. PSD always; a factor exists iff no two UTs of one state coincide. |
| C30 | Departure zenith spread mean is finite | partial | Lsp | Lsp | Mean of ZSD against the table. |
| C31 | Exactly the tabulated number of clusters is active | proved | Rays | Rays | Number of clusters of the link's state. |
| C32 | Cluster delays are sorted, non-negative and start at zero | partial | Rays | Rays | Sortedness, first delay zero, scaling by the cubic polynomial of K. |
| C33 | Inactive clusters carry no power and stay last | proved | Rays | Rays | Sorting permutation; unscaled delays of inactive clusters are larger than all active ones for spreads up to 20 ms. |
| C34 | Cluster powers are a probability vector | proved | Rays | Rays | Probability vector; exponential decay and log-normal shadowing; Rician mixture for the angles. |
| C35 | Cluster powers are defined for indoor UTs | partial | Rays | Rays | Non-negative, sum 1, inactive zero; failure as 0/0 is explicit. |
| C36 | In LoS the first cluster lies in the LoS direction | proved | Rays | Rays | Centre of the first cluster equals the LoS angle; definedness of ray generation. |
| C37 | Ray angles are normalised | proved | Rays | Rays | Wrapping of azimuth and zenith: range, same direction, same cosine, for all generated rays. |
| C38 | Random coupling is a permutation inside each cluster | proved | Rays | Rays | Coupling permutes the 20 rays within each cluster (argsort of draws as permutation). |
| C39 | Intra-cluster offsets are symmetric | partial | Rays | Rays | Ray offsets sum to zero. |
| C40 | Cross-polarisation ratios are positive | proved | Rays | Rays | Positivity, dB value affine in the draw. |
| C41 | High satellites have no departure azimuth spread | partial | Rays | Rays | Departure angles at a satellite. |
| C42 | Orientation changes are rigid rotations | proved | Coeff | Coeff | Rotation matrices orthogonal with determinant one; inverse; composition order. |
| C43 | Local and global angles describe the same direction | proved | Coeff | Coeff | LCS/GCS angle conversion against the rotated unit vector. |
| C44 | Antenna field vector is invariant under the coordinate change | proved | Coeff | Coeff | Field rotation preserves norm, agrees with the rotation of the tangent basis. |
| C45 | Phase terms do not change power | proved | Coeff | Coeff2 | Moduli of phase terms, unitary Faraday rotation, power of a LoS coefficient. |
| C46 | Each ray contributes to exactly one path | proved | Coeff | Coeff2 | Sub-clusters partition the rays; sums agree. |
| C47 | Path delays are sorted and paired with their coefficients | proved | Coeff | Coeff2 | Number, order and delays of paths. |
| C48 | K-factor splits power between LoS and scattered paths | proved | Coeff | Coeff2 | Rician combination and power ratio. |
| C49 | Satellite Doppler is bounded by orbital speed | proved | Coeff | Coeff2 | Bound of the phase rate by orbit speed times cosine of elevation; guards. |
| C50 | Uplink and downlink LoS channels are reciprocal | proved | Cir | Cir | Exchange of roles gives the transposed response. |
| C51 | Output axes are receiver first, transmitter second in both directions | proved | Cir | Cir | Axis permutation as index functions. |
| C52 | Step-12 gain is path loss plus shadow fading | proved | Pathloss | Pathloss | Gain in dB as a sum, per link and flag. |
| C53 | Disabling shadow fading removes shadow fading | partial | Pathloss | Pathloss | Dependence on the draw. |
| C54 | Shadow fading is applied once | partial | Pathloss | Pathloss | Variance of the normal combination. |
| C55 | Path loss grows with distance and frequency | proved | Pathloss | Pathloss | Monotonicity and doubling law in distance and frequency. |
| C56 | Total path loss is the sum of its parts and extra losses are never gains | partial | Pathloss | Pathloss | Signs and sums of the losses; the sign of the radicand follows from monotony of sin(11t/6) / (sin t cos(t)^(5/6)), whose derivative is positive because sine is concave; threshold located by Taylor bounds. |
| C57 | Scintillation uses the ITU effective path length | partial | Pathloss | Pathloss | Comparison with the ITU expression. |
| C58 | Antenna elements of a panel array are centred and evenly spaced | proved | Antenna | Antenna | Centred, planar, regular spacings for all sizes. |
| C59 | Antenna elements of one polarisation never coincide | proved | Antenna | Antenna | Injectivity of positions. |
| C60 | Polarisation index sets partition the antennas | proved | Antenna | Antenna | Index lists of polarisations partition the antennas. |
| C61 | Antenna patterns are bounded and slant keeps power | proved | Antenna | Antenna | Patterns: non-negative, bounded by boresight, split over slants. |
| C62 | Dual polarisation produces the requested slants | partial | Antenna | Antenna | Slant angles of each polarisation type. |
| C63 | Subcarrier frequencies | proved | Ofdm | Ofdm | Frequencies for even and odd sizes. |
| C64 | Frequency response is the Fourier sum of the impulse response | proved | Ofdm | Ofdm | Frequency response as a sum of exponentials; normalisation. |
| C65 | Time-domain taps are sinc-interpolated | proved | Ofdm | Ofdm | Taps as sinc samples; normalisation. |
| C66 | Time-domain to OFDM conversion is the shifted DFT of the taps | proved | Ofdm | Ofdm | DFT of taps. |
| C67 | Tap range covers the delay spread | proved | Ofdm | Ofdm | Smallest range with the margin of six lags. |
| C68 | Dropped UTs see the satellite at the requested elevation | proved | TopoGen | TopoGen | Elevation reproduced by the generated satellite position. |
| C69 | UT antennas point at the satellite | partial | TopoGen | TopoGen | Satellite orientation towards the centre. |
| C70 | Generated topologies are accepted | proved | TopoGen, Topology, Channel | TopoGen | Generated topologies run through the model of `set_topology` succeed. |
| C71 | Requested indoor probability is honoured | partial | TopoGen | TopoGen | Indoor state from its probability. |
| C72 | Multi-sector interferer topology can be generated | partial | TopoGen | TopoGen | The exact exception for all arguments. |
| C73 | Scenario defaults | proved | TopoGen | TopoGen | Default values per scenario. |
| C74 | Relocating UTs is a rigid motion | proved | TopoGen | TopoGen | Rigid motions. |
| C75 | Orbital speed follows Kepler's law | proved | Coeff | Coeff2 | Speed of the satellite from Kepler's law. |
| C76 | Exponential correlation matrix is a correlation matrix | proved | CorrMat | CorrMat | Hermitian, unit diagonal, positive definite by explicit factorisation. |
| C77 | One-ring correlation matrix is a correlation matrix | proved | CorrMat | CorrMat | Characteristic function: Hermitian, PSD. |
| C78 | TDL powers are normalised | proved | Tdl, DelayTables | Tdl | Powers of loaded models sum to one. |
| C79 | Every accepted TDL model name can be constructed | partial | Tdl | Tdl | Accepted names. |
| C80 | CDL channel can be generated | partial | Cdl | Cdl | Outcome of a call. |
| C81 | Installation patch is idempotent and additive | partial | Install | Install | Text edit on lists of lines. |
| C82 | A generated channel is finite and causal | proved | Cir, Channel, Rays, Coeff, Pathloss | Cir2 | End to end: all stages composed over all histories. |
| C83 | Time and frequency vectors | proved | Ofdm | Ofdm | Grids of time instants and frequencies. |
| C84 | Direct and tap-based frequency responses agree on the sample grid | proved | Ofdm | Ofdm | DFT of sinc taps equals the direct response for whole-sample delays. |
| C85 | The generated satellite antenna looks straight down | proved | TopoGen | TopoGen | Satellite panel faces down. |
| C86 | TDL spatial correlation is the one requested | partial | Tdl | Tdl | Covariance of correlated taps as exact quadratic form. |
| C87 | Average TDL tap power equals the reported mean power | proved | Tdl, Lemmas/Phases | Tdl | Average over independent uniform phases, as integrals. |
| C88 | TDL Doppler bounds include the satellite motion | partial | Tdl | Tdl | Doppler of satellite and UT. |
| C89 | TDL delays | proved | Tdl | Tdl | Delays scale with the spread. |
| C90 | CDL powers are normalised | proved | Cdl | Cdl | Powers of loaded models. |
| C91 | CDL rays surround the cluster angle | proved | Cdl | Cdl | Ray angles and role exchange. |
| C92 | Azimuth of clusters follows a Gaussian profile | proved | Rays | Angles | Inverse Gaussian profile, scaling constants, centring. |
| C93 | Zenith of clusters follows a Laplacian profile | proved | Rays | Angles | Inverse Laplacian profile. |
| C94 | Cluster sides and ray couplings are drawn for each UT | partial | Rays | Angles | Shape of sign and coupling draws. |
| C95 | Zenith of departure offset is in the unit of the angles | partial | Rays | Angles | Unit of the offset. |
| C96 | Gas loss is that of ITU-R P.676 | partial | Pathloss, Spec/Itu | Itu | Recommendation written separately, term by term. |
| C97 | Scintillation loss is that of ITU-R P.618 and TR 38.811 | partial | Pathloss, Spec/Itu | Itu | As C96. |
| C98 | Antenna patterns have their tabulated shape | proved | Antenna | Patterns | Real analysis; Bessel integral differentiated under the integral, differential equation by integration by parts. |
| C99 | Reported gain and directivity of an element | partial | Gain | Patterns | Sum over the grid in closed form. |
| C100 | Average power of the paths | proved | Coeff, Lemmas/Phases | Power | Coefficients written as sums of phasors with independent phases; orthogonality of phasors under the product measure. |
| C101 | Satellite Doppler is possible on a circular orbit | partial | Coeff | Orbit | Bound and attainability of range rates on circular orbits in Euclidean space (Cauchy-Schwarz on the component perpendicular to the position). |
| C102 | Penetration loss of indoor UTs follows TR 38.901 | proved | O2i | O2i | Formulas compared with the tables of the standard; monotonicity of the exponentials. |
| C103 | Doppler helper returns the largest satellite Doppler shift | partial | O2i | O2i | As C101. |
| C104 | Large-scale distributions are those of the standard | proved | Lsp, Tables, Spec/Standard | Standard | Kernel comparison of all table cells with the values recorded in the test suite, lifted to all requests by the nearest-row lemma. |
| C105 | Cross-correlations are those of the standard | proved | Lsp, Tables, Spec/Standard | Standard | As C104, for the assembled matrix. |
| C106 | Correlation distances are those of the standard | proved | Lsp, Tables, Spec/Standard | Standard | As C104, combined with C28. |
| C107 | LoS probability is that of the standard | proved | Scenario, Tables, Spec/Standard | Standard | As C104. |
| C108 | Clutter loss and shadow fading are those of the standard | proved | Pathloss, Lsp, Tables, Spec/Standard | Standard | As C104, combined with C55. |
| C109 | Delay scaling is that of the standard | proved | Scenario, Tables, Spec/Standard | Standard | As C104. |
| C110 | Uplink and downlink differ only at the satellite end | proved | Scenario, Pathloss, Tables | Standard | Kernel comparison of the uplink with the downlink tables, lifted to all requests. |
| C111 | Panel arrays exist exactly for documented arguments | proved | Antenna, Spec/Antenna | Arrays | Case analysis of the argument checks of the constructor against the documented combinations. |
| C112 | Default spacings are half a wavelength | proved | Antenna, Spec/Antenna | Arrays | From the closed form of the positions (C58), with the defaults written in metres in the specification. |
| C113 | TDL taps have the autocorrelation of Clarke's model | proved | Tdl, Lemmas/Fading, Spec/Bessel | Fading | The tap is a sum of phasors; orthogonality of independent uniform phases leaves one integral over each angle sector, and the sectors add up to the integral that defines J0. |
| C114 | TDL taps and antenna pairs fade independently | proved | Tdl, Lemmas/Fading | Fading | Orthogonality of independent uniform phases. |
| C115 | Orientation is bearing, then downtilt, then slant | proved | Coeff, Spec/Steering | Steering | Product of the three elementary rotation matrices compared entry by entry with the matrix of the code. |
| C116 | A ray coefficient is that of TR 38.901 with Faraday rotation | proved | Coeff, Spec/Steering, Spec/Antenna | Steering | Field components are pinned by their defining equations (unique away from the poles), the phases are exponentials of cycles; the code's product is regrouped. |
| C117 | The LoS coefficient is that of TR 38.901 | partial | Coeff, Spec/Steering | Steering | As C116 without random phases; a concrete link separates the two signs of the distance phase. |
| C118 | Path loss reproduces the TR 38.821 link budgets | proved | Pathloss, Spec/LinkBudget | LinkBudget | Rational bounds on the slant range and on powers of ten enclose the logarithm. |
| C119 | Losses fall when the satellite rises | proved | Pathloss | LinkBudget | Monotonicity of the slant range (C21) and of the sine. |
| C120 | Doppler switch | proved | Topology, Channel, Coeff | Doppler | Induction over call histories; splitting and sorting of paths commutes with additive maps of the coefficients. |
| C121 | Sampling rate only refines the time grid | proved | Cir | Doppler | Unfolding of the call; sample m k at rate m f is taken at the time of sample k at rate f. |
| C122 | A batch is the collection of its examples | partial | Topology, Channel, Cir | Symmetry | Every step of set_topology and of the call commutes with the selection of examples (Cholesky factors are unique); induction over call histories. The negation is a batch with satellites at 600 km and 1200 km. |
| C123 | Horizontal position of the scene does not matter | proved | Topology, Channel, Cir | Symmetry | The same commutation for displacements. |
| C124 | Heading of the scene does not matter | proved | Topology, Channel, Cir | Isotropy | Azimuths are turned up to full turns by every step; local angles, polarization angle, array phases and Doppler only depend on azimuth minus bearing. Induction over call histories. |
| C125 | A generation works on the latest scene | proved | Topology, Channel, Cir | Scene | Induction over call histories: attributes are the latest arguments of successful calls (channel_latest); the inputs of ray generation are read off the updated scenario. |
| C126 | A complete topology call leaves no trace of earlier calls | proved | Topology, Channel | Forget | Every step of the update reads only what the call stored or an earlier step of the same update wrote; case analysis over the steps. |
| C127 | Scenario attributes report the current scene | partial | Getters, Topology | Getters | Invariant over call histories: all losses exist once an update succeeded; the values follow from the freshness invariant of C12. |
| C128 | Cloud attenuation follows ITU-R P.840 | proved | Additional | Additional | The quotient of the two permittivities is computed with complex numbers in the specification; both relaxation frequencies are shown positive on the temperature range. |
| C129 | Rain attenuation per kilometre follows ITU-R P.838 | partial | Additional | Additional | The loops are unrolled to the sums of the specification; the cosine of the tilt is zero; the violation bounds the exponents at one Ka band frequency with rational bounds of the exponential. |
| C130 | The cloud and rain loss can be computed | partial | Additional, Getters | Additional | Sign analysis of every square root and denominator; the hypotheses on the state come from C127. RainFails: interval bounds of the four P.838 curves over the accepted bands (nine intervals of log10 f). |
| C131 | The attributes of an array agree with each other | proved | ArrayAttrs, Antenna | ArrayAttrs | The odd rows of the index table are the even rows shifted by one; positions by the closed form of C58. |
| C132 | TDL profiles are those of the standard | proved | Tdl, Spec/Profiles | Profiles | Comparison of every table with the profile, then the normalisation of C78 and C89. |
| C133 | CDL profiles agree with the TDL profiles of the same name | proved | Cdl, Spec/Profiles | Profiles | As C132, with C90 and C91. |
| C134 | A generated channel is finite with probability one | proved | Model/Cir, Model/Rays, Model/Lsp, Model/Channel | AlmostSure | For line of sight the K-factor of a UT is 10^(mu+sigma Z) with Z standard normal (from the Cholesky factorisations) and sigma > 0 in all tables; so it avoids the finitely many roots of the three scaling polynomials almost surely. Outside the roots all quotients in the ray generation are by numbers other than zero; the rest of the pipeline is total (`generation_numbers`, also used for C82). |
| C135 | Removing the last UTs changes nothing for the others | proved | Model/Topology, Model/Channel, Model/Cir | Prefix | A simulation relation between the state with all UTs and the one with the first U' is preserved by every operation. Everything but the spatial correlation is per UT; for that, the factor of a leading submatrix is the leading part of the (lower triangular, unique) Cholesky factor, and lower triangularity is an invariant of the reachable states. |
| C136 | Numbering of the UTs does not affect statistics | partial | Model/Lsp | Numbering | The law of linear combinations of independent normal draws depends only on the inner products of their coefficients (characteristic functions); for one parameter these are the spatial correlations of the selected UTs. Witness of the negation: the second of two UTs 10 m apart, with and without the first. |
| C137 | Both precisions work | partial | Model/Precision | Precision | Element types are modelled separately from the numbers: each modelled function computes the element types of its results or reports the first combination of tensors of different types. Single precision is a case analysis over all kinds of arguments; in double precision every path ends in an error. |
| C138 | LoS states are drawn independently with the tabulated probability | proved | Model/Topology, Model/Scenario | LosLaw | The draws of a call are random variables on any probability space (Spec.TopoRandom: independent, with the laws of tf.random.uniform and tf.random.normal). The attribute after the call is written as a measurable function of the draws of the link (Spec.UpToDate of C12), so independence carries over, and the probability is the length of an interval, with the value of C107. |
| C139 | Basic path loss has the tabulated conditional law | proved | Model/Topology, Model/Pathloss | LosLaw | The path loss is an affine function of the normal number belonging to the LoS state (C108), and that number is independent of the one deciding the LoS state; the image of the standard normal law under an affine map is computed with Mathlib. |
| C140 | Path coefficients are uncorrelated between paths and stationary in time | proved | Model/Coeff | Statistics | A coefficient is written as mean plus a sum of ray weights times unit phasors of independent uniform phases; products of phasors of different rays average to zero (Lemmas/Fading). The ray weights are computed from the plane-wave and Doppler phases; which rays share a path is stated through a map from rays to paths. |
| C141 | Frequency response is stationary in time and frequency | proved | Model/Coeff, Model/Ofdm | Statistics | The frequency response (C64) is again a sum of phasors with weights turned by delay times frequency; the covariance follows as in C140. |
| C142 | Without sub-clusters every cluster is one path | proved | Model/Coeff | Plain | The sorting permutation is the witness; the coefficient is written as mean plus weights times unit phasors as in C140, with the ray-to-path map being the cluster of the ray. |
| C143 | TDL calls with spatial correlation keep the mean powers | partial | Model/Tdl | TdlCall | Positive definite complex matrices have a Cholesky factor (Lemmas/Cholesky, from the LDL decomposition of Mathlib), so the correlation step is a linear map whose covariance is known from C86; coefficients are constants plus weights times unit phasors, so second moments are sums over the phases. |
| C144 | Clusters follow the laws of TR 38.901 steps 5, 6 and 9 | proved | Model/Rays | RayLaw | The image of the uniform law under -a ln x is computed as the measure of an interval, normal laws by affine maps; the functional relation to the clusters is unfolded from `raysCall` with the sorting permutation as witness, for every draw. |
| C145 | Topologies of a batch are generated independently | partial | Model/TopoGen | DropLaw | The laws are images of uniform laws under affine maps; independence is preserved by applying functions to independent draws. For the negation two events with positive probability are exhibited which exclude each other. |
| C146 | Random coupling is uniform and independent | proved | Model/Rays | Coupling | Two independent numbers without atoms almost never agree, so the sets of arrays with a given sorting permutation have full measure together; permuting coordinates preserves the product law and maps these sets to each other, hence each has measure 1/20!. Measurability of the sorting permutation gives independence. The relation to the rays is unfolded from `raysCall`. |
| C147 | LoS phase belongs to the path length | partial | Model/Rounding, Model/Coeff | Rounding | The expression is evaluated with a rounding after each operation, for an arbitrary function that rounds to a nearest number of the IEEE format (Spec/Rounding; Lemmas/Rounding proves existence, the relative error and exact evaluation). Counting relative errors gives the bound; the witness is evaluated operation by operation with pi to 20 digits. |
| C148 | Doppler phase follows the movement | partial | Model/Rounding, Model/Coeff | Rounding | As C147; products that may vanish or underflow are bounded with an absolute term. |
| C149 | Single precision does not disturb slant range and path loss | proved | Model/Rounding, Model/Geometry, Model/Pathloss | RoundingLoss | Relative errors of the positive terms of the radicand, the root is 1-Lipschitz in the sine term, then the subtraction; the logarithm turns the relative error of the range (at least the altitude) into decibel. |
| C150 | All tensor operations fit together and the output has the documented shape | proved | Model/ShapeOps, Model/Shapes | Shapes | Every operation on shapes is evaluated symbolically in the sizes; the histories by induction over the calls; the number of clusters comes from the tables (C04). |
| C151 | Arguments that disagree about the number of examples or UTs are rejected | partial | Model/ShapeOps, Model/Shapes | Shapes | The same evaluation with independent sizes for every argument: each operation with a mismatch fails, or enlarges a dimension that a later selection compares with that of the locations. |
| C152 | Cluster directions follow the law of TR 38.901 step 7 | proved | Model/Rays | DirectionLaw | Pairs of sign and number are independent (generating pi-systems of rectangles); the law of a pair is a product whose image is a mixture of two normal laws; the shape is the same for all draws because the profile determines it. Moments by integration. |
| C153 | Conversion of taps to the resource grid keeps energy and is invertible | proved | Model/Ofdm | OfdmEnergy | Orthogonality of roots of unity (geometric sum), then inversion and Parseval from the closed form of C66; normalised taps by C65. |
| C154 | Shapes fit from the generated topology to the frequency response | proved | Model/ShapeOps, Model/ShapesConvert, Model/Shapes, Model/Tdl | ShapesConvert | Symbolic evaluation of the shape operations for arbitrary sizes; composed with C150; the sizes of the TDL tables are computed from the files. |
| C155 | Large-scale parameters are jointly lognormal and independent between states | proved | Model/Lsp | LspLaw | Linear images of independent normal draws are jointly normal; the Cholesky factor of a block matrix is a block matrix, so the parameters of a state are functions of the draws of that state. |
| C156 | TDL accepts exactly correlation matrices | partial | Model/Tdl | TdlMatrix | Success of the factorisation is equivalent to positive definiteness of the matrix read (LDL decomposition in one direction, triangular determinant in the other); the matrix read is the given one if it is Hermitian and depends on the lower triangle only |
| C157 | Whole numbers may be written as integers | partial | Model/Precision | IntArgs | case analysis on the kinds of the arguments, separated by the part of the function that uses them |
| C158 | Entries of the parameter files have the element type their use needs | proved | Model/Precision, Model/Tables, Model/Scenario | IntArgs | evaluation of the list of integer cells; C158_whole checks this list against the modelled tables |
| C159 | Arrows shown at the nodes are the axes of their arrays | proved | Show | Show | the three vectors are the columns of the rotation, of length one; scaling keeps direction |
| C160 | A topology is shown to scale | partial | Show | Show | case distinction on the two conditions; witness with UTs at the origin and BS at 600 km |
| C161 | Every node is shown once, in its group | partial | Show, Topology | Show | LoS invariant of C15 (indoor UTs are never LoS) makes the two filters disjoint; permutation of a filtered list and its complement; witness with an indoor UT |
| C162 | An array is drawn as it radiates | partial | ShowArray, Antenna | ShowArray | partition of the indices (C60), slants of the elements (C62), field at boresight compared with the direction of the marker |
| C163 | The window of taps keeps the channel over the band | proved | Model/Ofdm | Window | Parseval's identity on the circle for a finite sum of rotations: the Fourier coefficients of a path are the shifted cardinal sines, those of the taps are zero outside the window; the tail is bounded by a telescoping sum |
| C164 | An antenna element is drawn with its gain | partial | Model/ShowElement, Model/Antenna | ShowElement | the grid angles are odd multiples of pi/198 and pi/99 away from boresight; the bound on the aperture gain uses |J1| <= 1 and the smallest angle to boresight |
| C165 | A panel is drawn in wavelengths | proved | Model/ShowElement, Model/Antenna | ShowElement | closed form of the positions filled by the loops, list manipulation |
| C166 | UTs are dropped in a uniform direction | partial | Model/TopoGen | DropAzimuth | the azimuth is the arc cosine of the draw and unique almost surely; no uniform law has the values of this distribution function at 0, 30, 60 and 90 degrees |
| C167 | Circular scattering, independent paths and links | proved | Model/Coeff, Model/Cir | Circular | The coefficients are written as sums of phasors (`coeffCall_phasors`); uniform phases are invariant under rotation of the circle (`phasor_turn`, by the invariance of Haar measure), so the joint law of all phasors is (`phasors_turn`), and the coefficients are a measurable function of the phasors. Paths and links use disjoint blocks of the phases, and functions of disjoint blocks of independent variables are independent (`iIndepFun_blocks`, by pi-systems). |
| C168 | Scenario and arrays have the same carrier frequency | partial | Model/Rounding, Model/Scenario | Wavelength | The comparison of system_level_scenario.py 101 evaluated operation by operation in the arithmetic of Spec/Rounding; relative errors of the two conversions give the bound, and evaluation of the roundings at 2 GHz the counterexample. C168_model links the exact case to the constructor of Model/Scenario. |
| C169 | TDL taps fade like Rayleigh and Rice | proved | Model/Tdl | Rayleigh | A tap is a constant plus a sum of N independent phasors of equal amplitude, for any times and antennas. The fourth moment of such a sum is computed by induction over the phasors. For the limit the characteristic function of one phasor is expanded to second order with its third-order bound, its N-th power converges to that of the circular normal law, and Levy's theorem gives convergence; the disc of radius sqrt(y) has a boundary of measure zero and its probability is computed in polar coordinates. |
| C170 | Paths of a scenario fade at most like Rice fading | proved | Model/Coeff | Rayleigh | A path is a constant plus a finite sum of phasors (four per ray), and the fourth moment of such a sum (as for C169) gives the variance exactly: (mean power)^2 - (constant power)^2 minus the sum of fourth powers of the amplitudes. |
| C171 | The import graph loads without cycles that break | proved | Model/Imports | Imports | An interpreter of Python's import system (sys.modules, partially initialised modules, attributes of packages) executes the import statements of all files; the runs from each start are computed by the kernel with all names of Sionna present, a monotonicity lemma (`run_full`) transfers them to every set of names, and induction over the session gives all orders. |
| C172 | Objects of the package work together under both import names | partial | Model/Imports | Imports | every complete state reached by a session is one of those computed for C171; in each the check of the constructor is evaluated for all array classes of both copies |
| C173 | The package can be imported on its own | partial | Model/Imports | Imports | kernel computation of the failing imports, induction over the session |
| C174 | The installation works wherever pip puts the packages | partial | Model/InstallScript, Model/Install, Model/Imports | InstallScript | The script as a function on the files of the machine: what it does to each path is computed symbolically for every directory; C81 gives the inserted line and C171 the imports. |
| C175 | The installation script changes only what it installs, and can be repeated | partial | Model/InstallScript, Model/Install | InstallScript | the effect of the first and of a repeated run on every path, and C81_idempotent for the init file; induction over the runs |
| C176 | Slant range is the distance of satellite and UT | partial | Model/Geometry, Model/Topology, Model/Getters | SceneGeometry | invariant of reachable states (C10) for the attributes, the quadratic equation of C21 for the slant range and the distance of the positions; their difference factors |
| C177 | UTs see the satellite at the elevation of the scenario | partial | Model/Geometry, Model/TopoGen, Model/Getters | SceneGeometry | invariant of reachable states, polar form of the LoS direction, C68 for the generated positions |
| C178 | Direction at the satellite and slant range belong to one triangle | partial | Model/Geometry, Model/Topology, Model/Getters | SceneGeometry | invariant of reachable states and the polar form of the LoS direction; monotonicity of the sine |
| C179 | A call of the channel model keeps the precision | partial | Model/Precision, Model/PrecisionCir | PrecisionCir | the element types of all tensors of a call are computed; case split over switches and kinds |
| C180 | A scenario accepts arrays of its own precision only | proved | Model/Precision, Model/PrecisionCir | PrecisionCir | case split over the precisions |
| C181 | Conversions of impulse responses keep the precision | proved | Model/Precision, Model/PrecisionCir | PrecisionCir | element types of the three functions; case split over kinds and precisions |
| C182 | A TDL model can be created and called in either precision | partial | Model/Precision, Model/PrecisionCir | PrecisionCir | element types of constructor and call; case split over kinds and branches |
| C183 | Seeding Sionna's generator makes the channel reproducible | partial | Model/Topo, Model/Channel, Model/Cir, Model/Rays, Model/Coeff | Seeds | two runs as an inductive relation between states; equality of all attributes but indoor distance and basic path loss is preserved by every step of the update; for the negative part the delays of all paths sum to different numbers for two draws of cluster delays |
| C184 | Single precision does not disturb the conversions to frequency and time | proved | Model/Rounding, Model/Ofdm | RoundingConvert | relative errors of products of rounded factors, an absolute error for underflow; the unit circle and the sinc function (an integral of cosines) are Lipschitz |
| C185 | Path loss of a UT has the mixture law of TR 38.811 | proved | Model/Topology, Model/Pathloss | LossMixture | total probability over the LoS state from C138 and C139; moments of a mixture of normal laws |
| C186 | Moving towards the satellite raises the frequency of the specular path | partial | Model/Coeff, Model/Topology, Model/Geometry | LosDoppler | the arrival direction of C24 for the positions passed last (invariant of C12), in the exponent of the Doppler term |
| C187 | Specular path and first cluster come from the same direction | partial | Model/Rays, Model/Geometry, Model/Coeff | LosDoppler | the folded zenith angles of C36 have the sine of the true direction; addition theorems bound the inner product by the ray offsets |
| C188 | Polarisation mixing neither creates nor destroys power | proved | Model/Coeff, Model/Antenna | Polarisation | the fields of the two polarisations are the columns of a scaled orthogonal matrix, which rotations keep; C100 for the four antenna pairs |
| C189 | The whole channel is reciprocal in law | partial | Model/Coeff, Model/Cir | Reciprocity | each ray is its own reverse with the two cross-polarised phases exchanged, which preserves the product of uniform laws; C188 for the sums; C100 for the counterexample |
| C190 | The installation contains every file that is needed, and only the package | partial | Model/Packaging | Packaging | The selection of packages, modules and data files as a filter of the files of the repository, monotone in the files; the files opened are those of C07 and of the name chains of TDL and CDL; the memberships are computed by the kernel. |
| C191 | Options of a channel model arrive where they belong | proved | Construct | Construct | Python's assignment of arguments to parameters is modelled for arbitrary signatures (fill_iff: positional first, then keywords, then defaults, each once) and applied to the three constructors on the way |
| C192 | Documented defaults of channel models | partial | Construct | Construct | from C191; two calls that differ in the two lengths only give equal configurations |
| C193 | The documented call makes a channel model | partial | Construct | Construct | exact condition for acceptance from the rule of C191 and the condition for scenarios (C01); the documented call lacks a required parameter |
| C194 | Options of antenna arrays arrive where they belong | proved | ConstructArray | ConstructArray | the rule for Python calls of C191, with the constructor of arrays (C111); Antenna and AntennaArray by what they pass on |
| C195 | Options of TDL models arrive where they belong | proved | ConstructArray | ConstructArray | the rule for Python calls of C191, with the constructor of TDL models (C79) |
| C196 | Options of the topology generator arrive where they belong | proved | ConstructArray | ConstructArray | the rule for Python calls twice: for the generator, and for the positional call inside |
| C197 | Documented parameters are accepted | partial | Documented | Documented | one call per callable that names all its parameters succeeds; a call with an unknown name fails |
| C198 | Calls in documented examples succeed | partial | Documented | Documented | each example evaluated with the constructors of C194, C195 and C196 |
| C199 | The simulations of the example notebooks run | proved | Simulation | Simulation | C145 with independence: almost surely no UT is below the satellite and no two coincide; then C70 for set_topology and C134 for the generation call; the objects by C193 and C194 |
| C200 | Single precision does not break the drop of the UTs | proved | Model/RoundingDrop, Model/TopoGen | RoundingDrop | Rounding to nearest is monotone, so the rounded slant range is not below the rounded height and the first radicand is not negative; it is zero or at least one. A draw of at most 1 - 2^-23 compensates the roundings of root and product, so the square of the first coordinate does not exceed the radicand. Relative errors of all terms, related to the square of the slant range, give the distance. |
| C201 | The delay spread of a delay line is the requested one | proved | Model/Tdl, Model/Cdl, Model/DelayTables | DelaySpread | Spread and mean excess delay are defined for lists of powers and delays. Scaling lemmas reduce every object to its profile (C132, C133); there the powers are enclosed by multiples of 10^-9, which the kernel checks with integer powers, and the enclosures of the three moments enclose the spread. |
| C202 | Motion of the UT alone spreads the Doppler spectrum | proved | Model/Coeff, Model/Tdl | DopplerSpectrum | Band limitation is membership in the complex span of oscillations, so sums and multiples stay inside. The Doppler factor of a direction is one oscillation, its frequency is bounded by Cauchy-Schwarz; reduction to paths and the Ricean combination only add and scale. |
| C203 | Only heights of satellites are accepted | partial | Model/TopoGen, Model/Coeff | SatelliteHeight | The defaults and all heights in the range are accepted and the satellite is placed there; every non-negative height succeeds as well, which gives the counterexample; below 600 km both conditions of the coefficient generator are false. |
| C204 | A plane wave couples two arrays by one component per polarisation | proved | Model/Coeff, Model/Antenna | MimoRank | The array offset is a product of a receive and a transmit phase, the field response a sum over two polarisation components; the matrix is therefore a product through a space of dimension two, or one if the response does not depend on the antenna of one end. For the paths of the output the ranks of their waves add up. |
| C205 | Clusters of a LoS link fan out from the LoS direction | partial | Model/Rays, Model/Tables | AngleBounds | Lower bounds of the two cubic polynomials on half lines; profile equations of C92 and C93 give order and size of the deviations. The zenith polynomial increases up to zero and has one root; and the law of the K-factor (C155) with a lower bound on the normal distribution. |
| C206 | No draw makes coefficients large or lets them jump | proved | Model/Coeff, Model/Antenna, Model/Topology, Model/Ofdm | Magnitude | Each ray is a constant times an oscillation (C202); the constant is bounded by the gains (C61) with Cauchy-Schwarz, the oscillation by the distance of phases. Bounds add up over the rays of a path as assigned by C47. |
| C207 | Coherence bandwidth and coherence time follow from delay spread and UT speed | proved | Model/Coeff, Model/Ofdm | Coherence | The covariance is the sum of mean ray powers times phases that advance with Doppler and delay (C141); its projection on the phase of a reference is bounded by 1 - x^2/2 <= cos x, and Doppler shifts deviate from that of the satellite by at most the speed of the UT (C202). |
| C208 | Isolation of the polarisations of upright antennas | proved | Model/Coeff, Model/Antenna, Model/Scenario | CrossPolar | An upright array has polarisation angle 0 or pi, so its field has one component with the element gain; inserted in the average power of C100. Monotonicity of the Faraday angle with frequency and bounds on pi for the bands. |
| C209 | Beams of an array have the gain and the pattern of its geometry | proved | Model/Coeff, Model/Antenna | Beam | The phase of an element towards a direction is linear in its indices (arrayOffset and positions of the array), so the beam sum is a product of four geometric sums, each with modulus |sin(pi n x) / sin(pi x)|. |sin n x| < n |sin x| unless sin x = 0 gives the lobes; triangle inequality for the bound. |
| C210 | UTs that are dropped apart stay apart in single precision | partial | Model/RoundingUts, Model/RoundingDrop, Model/Rounding, Model/Lsp | RoundingUts | Rounding errors of displacement, sum, difference and norm, added up; the centre point is bounded by C200. The witness evaluates every operation: the numbers near the centre are multiples of four. Equal rows of a correlation matrix contradict a factor with positive diagonal. |
| C211 | Range of taps and subcarrier grid survive single precision | partial | Model/RoundingTaps, Model/Rounding, Model/Ofdm | RoundingTaps | Error of the product in double precision; numbers that close to an integer are rounded to it, because the spacing of single precision is larger; monotonicity gives the bounds on both sides. Multiples of 15000 are numbers of the format up to 8947, by exhibiting mantissa and exponent. |
| C212 | Wrapping of angles survives rounding | proved | Model/RoundingAngles, Model/Rays | RoundingAngles | The truncated remainder is exact; the addition of 360 and the subtractions are bounded by monotone rounding, because 0, 180 and 360 are numbers of the format; the error is the sum of at most four roundings. |
| C213 | Delays and powers of clusters survive rounding | proved | Model/RoundingClusters, Model/Rays | RoundingClusters | Order and signs follow from monotone rounding and from x - x = 0; the rounded scaling of LoS delays stays above 0.07 by an error analysis of the cubic. The sum is an inductive relation over all bracketings and permutations: sums of numbers of the format do not underflow, so each addition has a relative error of one unit, and the sum is not below any term. |
| C214 | Directions keep their accuracy in the coordinates of an array | partial | Model/RoundingLocal, Model/Coeff | RoundingLocal | Error analysis: entries of the rotation are accurate to 9.4e-7 and components to 4.3e-6, using that the exact rotation is orthogonal; the sine of the local zenith is the root of 1 - z^2, which loses half of the digits near the poles, and this is the only loss. For the witness, a number of the format within 2^-25 below one does not exist, so the cosine of 3/16384 rounds to one. |
| C215 | Phases between antennas survive rounding | proved | Model/RoundingArray, Model/RoundingLocal, Model/Coeff | RoundingArray | A lemma bounds the error of a rounded sum of three products whose factors have errors relative to a scale; it is applied to the rotation of the antenna and to the projection on the direction. The wavenumber has a relative error of seven units. The exponentials turn phase errors into errors of the factor, and the complex product adds 6e-7. |
| C216 | Polarisation survives the change of coordinates with rounding | proved | Model/RoundingField, Model/Coeff | RoundingField | Real and imaginary part of the displacement are accurate to 5e-6 together, and their exact modulus is the sine of the local zenith (psi_spec); the phase of a complex number changes by at most twice the relative change. The exact components are identified by C44 and by uniqueness of local angles off the axis. |
| C217 | Pattern of the circular aperture is defined and accurate with rounding | proved | Model/RoundingAperture, Model/Antenna | RoundingAperture | The quotient J1(x)/x is an integral of sin(x s)/x, whose change is at most a quarter of the change of x^2 (mean value theorem), so the error of the arc cosine near the axis does not matter. The largest number below one is at most 1 - 2^-25, which keeps the denominator above 0.009. Cases: behind, axis, quotient, each against the exact pattern in any case. |
| C218 | TDL taps keep their accuracy over a simulation | partial | Model/RoundingTdl, Model/Tdl | RoundingTdl | Error of every operation in turn: arrival angle of a sinusoid, its phase, the sum in any order (induction on the order of addition), normalisation and power, specular path. Witness: a number above 2^24 plus one half is rounded to an even integer, so the initial phase is lost; the library has a cosine that is one next to 2 pi. |
| C219 | Element patterns with lobes are accurate with rounding | proved | Model/RoundingPattern, Model/Antenna | RoundingPattern | Errors of the relative angles, of the square and of the sum are followed operation by operation; the minimum does not enlarge an error, and an error of the exponent becomes a relative error of the power. The reference is the closed form of both patterns (C98). Floor: the limits 25 and 30 and their negatives are numbers of the format and rounding is monotone. |
| C220 | Large scale parameters are accurate with rounding | proved | Model/RoundingLsp, Model/Lsp | RoundingLsp | A sum of n numbers in any order of rounded additions errs by at most 6.1e-8 (n - 1) times the sum of the magnitudes (induction over the order). With Cauchy-Schwarz for the rows this bounds both matrix products; the error of the exponent becomes a relative error, and the minimum does not enlarge it. C220_rows: exact factors of correlation matrices satisfy the condition on the rows. |
| C221 | Directions of clusters survive rounding | proved | Model/RoundingDirections, Model/Rays | RoundingDirections | Clipping and rounding commute because rounding is monotone and keeps 1, so the clipped power is the rounded exact one and its logarithm errs by at most 6.1e-8. A difference of roots is at most the root of the difference, which bounds the effect near the strongest cluster by 2.5e-4. The other operations are followed one by one; in LoS the deviation of the first cluster cancels up to two roundings. |
| C222 | Combination of LoS and NLoS and gain survive rounding | proved | Model/RoundingGain, Model/Cir, Model/Pathloss | RoundingGain | Each operation is followed with its relative error and an absolute error of 2e-38 for results below the range of normal numbers. The exponent errs by at most 1.2e-6, so the power of ten errs by 5.6e-6 relative; the gain is at least 1e-24, so its product with the shadow fading does not underflow. The product with a real number has no contribution of the imaginary part because zero is kept by rounding. |
| C223 | Assembly of coefficients survives rounding | proved | Model/RoundingRays, Model/Coeff | RoundingRays | `Close e B` says that the exact value is bounded by B and the error by e B. Products add the fractions and 6e-7, sums keep the larger fraction and add 1e-7, so the chain is followed factor by factor. The sum of rays is bounded by induction over the order of additions, for real and imaginary parts. field_component_le and factors_unit show that the bounds hold for the arrays of the code: the root of the maximum gain, and one. |
| C224 | Factor of movement survives rounding | proved | Model/RoundingMovement, Model/Coeff | RoundingMovement | The projection of the velocity is a scalar product of three terms (dot_near). Its error enters the exponent in proportion to wave number and time; the operations on the exponent are those of C148. The result has the form that C223 requires of the factor of movement. |
| C225 | Errors of coefficients are not amplified on the way to the caller | proved | Model/RoundingGain, Model/Cir, Model/Pathloss | RoundingPath | The factors of LoS and NLoS are at most one, so the exact combination does not enlarge errors (combine_contract); the rounding of the combination and of the gain is that of C222, applied to inputs that carry errors. |
| C226 | Rounding keeps paths and their order up to delays that agree | proved | Model/RoundingPaths, Model/RoundingRays, Model/RoundingGain, Model/Coeff, Model/Cir | RoundingPaths | Without rounding the relation determines exactly the model of C47 (C226_model). Sorting does not enlarge deviations (sorted_near, by counting); the permutation is that of the two sorting orders; sums of rays as in C223, combination and gain as in C225. |
| C227 | The rounded path length turns all LoS coefficients of a link by one angle | proved | Model/Rounding, Model/RoundingRays, Model/RoundingMovement, Model/RoundingArray, Model/Coeff | RoundingCommon | The computed phase is the exact phase of another path length; C223_los for the link with that length, and the length enters the exact coefficient as a factor of modulus one (los_turn). In products with conjugates the factor cancels. |
| C228 | Conversions to frequency and time pass errors of the impulse response on | proved | Model/Rounding, Model/RoundingOfdm, Model/RoundingRays, Model/Ofdm | RoundingOfdm | Phases and sinc arguments as in C184 plus the shift due to the errors of the delays; relative errors of factors add up in complex products (close_mul), and the sum in any order adds 2.2e-6 (ray_sum_close). |
| C229 | Normalization gives unit energy with rounding | proved | Model/RoundingNormalize, Model/Ofdm | RoundingNormalize | Long sums in any order by induction over the tree of additions (long_sum_err); errors of magnitude, square, sum, quotient and root in turn, then division; the energies are compared entry by entry. |
| C230 | Rounding leaves the frequency response of a link as it is | proved | Model/RoundingPaths, Model/RoundingGain, Model/RoundingOfdm, Model/Coeff, Model/Ofdm | RoundingLink | C226_link gives coefficients and delays up to an exchange of paths; C228_frequency converts them; undoing the exchange changes the sum by the LoS component only, whose delay moves by twice the error of a delay (response_reorder). |
| C231 | Rounding leaves the taps of a link as they are | proved | Model/RoundingPaths, Model/RoundingGain, Model/RoundingOfdm, Model/Coeff, Model/Ofdm | RoundingLinkTime | As C230, with C228_time for the conversion; undoing the exchange of paths changes the sum by the LoS component only, and the sinc function is Lipschitz (tap_reorder). |

## Disagreements between code and property

In each of these the code violates the property. The negation of the full statement (`Cxx_statement`) is proved with a concrete witness as
`Cxx_violated`, and the `_partial` theorem says what holds nevertheless.

* **C09** Angular scaling constant matches the cluster count. The tables violate the property for Urban and Sub_Urban; proved for Dense_Urban, negation proved with a witness. Theorems: `C09_scaling_constant_partial`, `C09_scaling_constant_violated`.
* **C10** Topology arguments persist until replaced. Proved for calls that get past the assertions, hence for one BS and physical atmospheres in full; a call that fails later (two BSs) keeps what it stored: negation proved. Theorems: `C10_arguments_persist_partial`, `C10_violated`.
* **C11** A topology call fails exactly when a required argument was never given. Same restriction as C10; negation proved with two BSs. Theorems: `C11_assertion_partial`, `C11_violated`.
* **C12** Derived geometry is never stale. In full for one BS; with two BSs a successful empty call follows a failed one: negation proved. Theorems: `C12_derived_fresh_partial`, `C12_violated`.
* **C13** Atmospheric parameters persist until replaced. Omitted parameters are reset to standard values: negation proved. Theorems: `C13_atmosphere_partial`, `C13_violated`.
* **C14** Gas and scintillation losses reflect the current atmosphere. Only relocating calls recompute the losses: negation proved. Theorems: `C14_atmosphere_fresh_partial`, `C14_violated`.
* **C18** Channel generation is possible exactly after a successful topology call. Proved for one BS and UTs at different planar positions; with two BSs an empty call succeeds after a failed one and generation then fails: negation proved. Theorems: `C18_generation_possible_partial`, `C18_violated`.
* **C19** Atmosphere is configurable through the channel model. The channel model does not pass the atmosphere on: only the standard atmosphere is reachable, negation proved. Theorems: `C19_standard_atmosphere_partial`, `C19_violated`.
* **C22** Each batch example uses its own satellite altitude. The altitude of batch example 0 is used for all: negation proved. Theorems: `C22_altitude_partial`, `C22_violated`.
* **C24** LoS arrival angles point from UT to BS. The reported arrival direction has the right vertical part and a reversed horizontal part, so it is right exactly if the BS is straight above or below the UT: exact characterisation and negation proved. Theorems: `C24_arrival_direction_partial`, `C24_violated`.
* **C27** Large-scale parameters have the tabulated mean, deviation and correlation. Marginals and spatial correlation exact; cross-LSP correlation of later UTs is attenuated when correlation distances differ: negation proved with a witness. Theorems: `C27_lsp_statistics_partial`, `C27_tabulated_mean_deviation`, `C27_violated`.
* **C30** Departure zenith spread mean is finite. Holds in uplink; in downlink the mean is -inf: negation proved. Theorems: `C30_zsd_mean_partial`, `C30_violated`.
* **C32** Cluster delays are sorted, non-negative and start at zero. Proved for NLoS links and K-factors of at least -60 dB; the LoS scaling polynomial is negative below one threshold between -63.4 and -63.3 dB, above which the claim holds and up to which it fails (exact): negation proved. Theorems: `C32_delays_partial`, `C32_threshold`, `C32_violated`.
* **C35** Cluster powers are defined for indoor UTs. Indoor UTs have no active cluster, so the normalisation is 0/0 in every configuration: negation proved. Theorems: `C35_outdoor_partial`, `C35_violated`.
* **C39** Intra-cluster offsets are symmetric. One of the ten pairs is not opposite (1.1481, -0.1481): negation proved, resulting bias computed. Theorems: `C39_offsets_partial`, `C39_violated`.
* **C41** High satellites have no departure azimuth spread. The code looks at the height of the first BS of the first batch example only: negation proved for a batch of two. Theorems: `C41_departure_partial`, `C41_violated`.
* **C53** Disabling shadow fading removes shadow fading. The basic path loss always contains a shadow fading draw: negation proved for every configuration with path loss enabled. Theorems: `C53_shadow_fading_disabled_partial`, `C53_violated`.
* **C54** Shadow fading is applied once. The deviation has twice the variance of the table with path loss enabled: law proved, negation proved. Theorems: `C54_shadow_fading_partial`, `C54_violated`.
* **C56** Total path loss is the sum of its parts and extra losses are never gains. Gas, entry loss and sum for all atmospheres. The scintillation loss is a number if and only if the quantity 1.22 D_eff^2 f L^-1 is at most one threshold between 6.9 and 7.1 (C56_threshold); for larger antennas it is NaN, where ITU-R P.618 names no scintillation: negation proved. Theorems: `C56_losses_partial`, `C56_threshold`, `C56_violated`.
* **C57** Scintillation uses the ITU effective path length. The code puts the sine inside the root: exact comparison proved for all elevations, negation proved. Theorems: `C57_path_length_partial`, `C57_violated`.
* **C62** Dual polarisation produces the requested slants. Line 527 compares polarization instead of polarization_type with VH, so VH yields slants of -45 and 45 degrees: negation proved; everything else proved. Theorems: `C62_slants_partial`, `C62_violated`.
* **C69** UT antennas point at the satellite. arctan(y/x) ignores the quadrant: a UT with negative x looks in the opposite horizontal direction; negation proved. Theorems: `C69_boresight_partial`, `C69_violated`.
* **C71** Requested indoor probability is honoured. The probability is overwritten by 0 before use: negation proved. Theorems: `C71_outdoor_partial`, `C71_violated`.
* **C72** Multi-sector interferer topology can be generated. The function refers to an undefined name and raises for all arguments: negation and the exact error proved. Theorems: `C72_raises_partial`, `C72_violated`.
* **C79** Every accepted TDL model name can be constructed. The accepted name "E" leads to a NameError: negation proved. All other names proved. Theorems: `C79_names_partial`, `C79_violated`.
* **C80** CDL channel can be generated. The call never succeeds: the topology is built without three required arguments. Negation proved, construction proved. Theorems: `C80_call_partial`, `C80_violated`.
* **C81** Installation patch is idempotent and additive. If the old import is the last line and lacks a newline the new import is glued to it: negation proved; idempotence proved for all contents; files with Windows line ends are covered too. Theorems: `C81_additive_partial`, `C81_violated`, `C81_idempotent`, `C81_windows`.
* **C86** TDL spatial correlation is the one requested. The Cholesky factor of the transmit side is multiplied without transposition: negation proved, exact covariance proved. Theorems: `C86_covariance_partial`, `C86_violated`.
* **C88** TDL Doppler bounds include the satellite motion. Satellite part too small by the factor 7200 pi: negation and exact value proved. Theorems: `C88_doppler_partial`, `C88_violated`.
* **C94** Cluster sides and ray couplings are drawn for each UT. Signs and coupling draws have a singleton UT axis and are shared by all UTs of a BS: negation proved. Theorems: `C94_shared_partial`, `C94_violated`.
* **C95** Zenith of departure offset is in the unit of the angles. The offset is computed in radian and added to degrees: negation and a bound on the error proved. Theorems: `C95_offset_partial`, `C95_violated`.
* **C96** Gas loss is that of ITU-R P.676. The equivalent height of water vapour uses 8.1 and 1.5 instead of 8.6 and 1.58: negation proved; everything else exact, loss within 8 % proved. Theorems: `C96_gas_partial`, `C96_violated`.
* **C97** Scintillation loss is that of ITU-R P.618 and TR 38.811. NaN for large antennas, another effective path length (C57) and 273 instead of 273.15 K: negation proved, exact value proved. Theorems: `C97_scintillation_partial`, `C97_violated`.
* **C99** Reported gain and directivity of an element. The grid counts azimuths -180 and 180 degrees twice, so the directivity of an isotropic element is reported negative: negation and a bound of 0.014 dB proved; gains exact. Theorems: `C99_gain_partial`, `C99_violated`.
* **C101** Satellite Doppler is possible on a circular orbit. The factor R/(R+h) of TR 38.811 6.9.2 is missing: negation proved; the range rate is exactly (R+h)/R times a possible one. Theorems: `C101_doppler_partial`, `C101_violated`.
* **C103** Doppler helper returns the largest satellite Doppler shift. The function has no return statement and returns None: negation proved; the expression it computes is the largest shift. Theorems: `C103_helper_partial`, `C103_violated`.
* **C117** The LoS coefficient is that of TR 38.901. Code violates the full claim, proved as C117_violated: channel_coefficients.py 1037-1042 turns the LoS coefficient by +2 pi d / lambda, TR 38.901 equation 7.5-29 by -2 pi d / lambda. All other factors agree. Theorems: `C117_los_partial`, `C117_violated`.
* **C122** A batch is the collection of its examples. the slant range, the treatment of satellites and the satellite speed of all examples are those of the altitude in the first example (system_level_scenario.py 811, rays.py 434, system_level_channel.py 212); the theorem holds for selections whose first example has the altitude of the first example of the batch Theorems: `C122_batch_partial`, `C122_violated`.
* **C127** Scenario attributes report the current scene. additional_pathloss raises AttributeError in every state: `_pl_a` is only written by compute_pathloss_additional, whose call is commented out (system_level_scenario.py 663). All other attributes are proved readable and current. Theorems: `C127_attributes_partial`, `C127_arguments`, `C127_spatial_correlation`, `C127_slant`, `C127_violated`.
* **C129** Rain attenuation per kilometre follows ITU-R P.838. compute_pathloss_additional ignores the rain rate passed to set_topology: utils.py 1920 uses the constant 40. With that constant the coefficients are proved to be those of P.838 at every frequency and elevation. Theorems: `C129_specific_partial`, `C129_violated`.
* **C130** The cloud and rain loss can be computed. The station height in the downlink is the satellite altitude in metres, far above the rain height in kilometres, so math.sqrt gets a negative number; batches of several examples raise a type error. In the uplink the horizontal path is divided by 1000 although it is already in kilometres (utils.py 1828), and the computation works only under the inequality stated in the theorem. This inequality holds nowhere in the two accepted frequency bands, proved with bounds of the ITU curves on nine intervals (C130_never): below 90 degrees elevation and at latitudes from -90 to 89 degrees the loss can be computed in no configuration. Theorems: `C130_additional_partial`, `C130_never`, `C130_violated`.
* **C136** Numbering of the UTs does not affect statistics. Proved: for each parameter, its values for any selection of UTs in any order have the same joint law as if only those were simulated in that order. Full claim proved false: the cross-correlation is applied before the spatial one with factors per parameter (lsp.py 132-142), so the correlation of delay spread and K-factor of a UT depends on whether another UT nearby has a lower number (same cause as C27). Theorems: `C136_each_parameter_partial`, `C136_violated`.
* **C137** Both precisions work. Violated: in double precision `gen_single_sector_topology` fails for all arguments (a draw without element type gets a float64 bound, zeros without element type are added to float64), `set_topology` fails (`tf.math.sin` of a Python number is float32 and is added to the float64 height), the TDL constructor fails (`tf.math.sqrt` of a Python number is multiplied with the float64 carrier frequency) and the aperture pattern fails (constants cast to float32). Single precision works. Proved: the negation, the exact behaviour in double precision and the claim for single precision. Theorems: `C137_single_partial`, `C137_double`, `C137_violated`.
* **C143** TDL calls with spatial correlation keep the mean powers. Violated in two ways. The transmit factor is multiplied from the right without transposition, so with a transmit correlation of 0.6 the first antenna gets 1.36 times its power. The specular component of LoS models is the same for all antennas before the multiplication with the factor, so with a receive correlation of 0.6 the specular power of the second antenna of model D is 1.96 times too large. Proved: the call always succeeds with the reported delays; mean powers are right without matrices, and with a joint or receive matrix for all taps without specular component; the scattered part then has the requested covariance. Theorems: `C143_call_partial`, `C143_violated`, `C143_violated_transmit`, `C143_violated_specular`.
* **C145** Topologies of a batch are generated independently. Violated: the centre of the drop is drawn with shape [1], once for the whole batch (utils.py 584), so UTs of different batch examples are always within one inter-site distance of each other in both coordinates. With the defaults of the dense urban scenario the first coordinates of two UTs of different examples are not independent. Proved: relative to the centre all UTs of all examples are independent and uniform in a square, heights, speeds and headings have the configured laws, and the generation succeeds almost surely. Theorems: `C145_drop_partial`, `C145_violated`.
* **C147** LoS phase belongs to the path length. The code violates the claim in single precision, the default: at 2 GHz and a path of 786.432 km the phase is off by 2.15 rad (C147_violated); with growing phase only multiples of ever larger steps are representable, from 2^27 rad on (Ka band LEO) multiples of 16 rad. Proved instead: relative error of eight units, hence the claim in double precision, and in single precision up to 165 000 wavelengths. The carrier frequency reaches the generator as a tensor (system level) or a Python number (CDL); both are covered. Theorems: `C147_phase_partial`, `C147_violated`, `C147_model`.
* **C148** Doppler phase follows the movement. The code violates the claim in single precision, the default: at 20 GHz and 4096 m/s the phase is off by 1.58 rad after ten seconds (C148_violated). Proved instead: an error of 14 units of the total rotation, hence the claim in double precision, and in single precision up to 119 000 rad. Theorems: `C148_phase_partial`, `C148_violated`, `C148_model`.
* **C151** Arguments that disagree about the number of examples or UTs are rejected. The code violates it (C151_violated): tensors with a single example or UT are repeated. After a scene with one UT, set_topology(ut_loc=...) with three UTs alone is accepted and a channel for three UTs is generated, all with the orientation, velocity and indoor state of the one. Proved instead: exactly which sizes are accepted by set_topology and by the generation, that the result is for the number of UTs of the locations, and that only equal sizes are accepted if none of them is 1. Orientations and velocities of wrong sizes are not noticed by set_topology but by the generation. Theorems: `C151_violated`, `C151_accepted_partial`, `C151_large_partial`.
* **C156** TDL accepts exactly correlation matrices. Only the lower triangle and the real parts of the diagonal are read, so a matrix that is not Hermitian is accepted and used as if its upper triangle were the conjugate of the lower one (0.6 below and 2 above the diagonal act like 0.6). Among Hermitian matrices exactly the positive definite ones are accepted; ones on the diagonal are not required. Theorems: `C156_accepted_partial`, `C156_violated`.
* **C157** Whole numbers may be written as integers. proved for every argument but the height: integers, floats, tensors and omissions may be mixed. An integer `bs_height` such as 600000 is always rejected, because `tf.fill` and `tf.math.square` make it an int32 tensor that is combined with floats (utils.py 1164, 586). Missing: that case, which is false Theorems: `C157_others_partial`, `C157_violated`.
* **C160** A topology is shown to scale. Violated (C160_violated): BSs and UTs are scaled separately, so with UTs near the origin and a BS at 600 km the UTs are drawn in metres and the BS in kilometres; the axes x and y are labelled with the unit of the UTs and the axis z with that of the BSs. Proved: to scale if and only if UTs and BSs alike exceed 10 km or both do not; always each group in a unit of its own, which is the one written at x and y (UTs) or z (BSs). Theorems: `C160_scale_partial`, `C160_violated`.
* **C161** Every node is shown once, in its group. Violated (C161_violated): the points of indoor UTs are commented out, only their indices and axes are drawn. Proved: the call succeeds, BSs and outdoor UTs are shown exactly once and in the right group. Theorems: `C161_groups_partial`, `C161_violated`.
* **C162** An array is drawn as it radiates. Violated (C162_violated) for polarization type "VH": the elements are built with slants of -45 and 45 degrees (C62) and drawn as horizontal and vertical lines; even with the documented slants the two lines would be exchanged. Proved: drawn faithfully for "V", "H" and "cross"; places and numbers always. Theorems: `C162_drawn_partial`, `C162_violated`.
* **C164** An antenna element is drawn with its gain. The two cuts are right. The surface uses 100 angles on both axes, so that boresight (zenith angle 90 degrees, azimuth 0) is never drawn: for the aperture antenna no point drawn has more than 81 per cent of the largest gain. Line 112 calls tf.math.log(a, 10), whose second argument is a name: the surface of the aperture antenna is 50 plus the natural logarithm of the gain while the axis says dB. Theorems: `C164_shown_partial`, `C164_violated`.
* **C166** UTs are dropped in a uniform direction. Line 587 draws the x coordinate uniformly, not the angle: the azimuth is at most t with probability 1 - cos t, so that half of the drops lie in the last 30 of 90 degrees. The docstring says that UTs are sampled uniformly from a sector. Theorems: `C166_azimuth_partial`, `C166_violated`.
* **C168** Scenario and arrays have the same carrier frequency. The comparison is of rounded wavelengths. Equal frequencies always pass and frequencies that pass agree up to 7 units of rounding (4.2e-7 relative in single precision, 7.8e-16 in double precision), but different frequencies can pass: in single precision a scenario at 2 GHz accepts arrays for 2 GHz + 1 Hz (C168_violated). Theorems: `C168_match_partial`, `C168_model`, `C168_violated`.
* **C172** Objects of the package work together under both import names. The link makes Python load the files twice, as OpenNTN and as sionna.phy.channel.tr38811, with separate classes. A scenario accepts exactly the arrays of its own copy (isinstance, system_level_scenario.py 92-95), so that scenarios of one name with arrays of the other fail an assertion. Theorems: `C172_copies_partial`, `C172_violated`.
* **C173** The package can be imported on its own. Modules import from sionna.phy.channel.tr38811 by absolute name, so without the link nothing of the package can be imported; with the inserted line and no link not even Sionna can. Theorems: `C173_link_partial`, `C173_violated`.
* **C174** The installation works wherever pip puts the packages. install.sh 17-18 cut the location at its first space. In a directory without spaces the installation works (given the names of C171). With a space in the directory of Sionna no link is made, but the line is inserted, so that Sionna itself can no longer be imported. Theorems: `C174_location_partial`, `C174_violated`.
* **C175** The installation script changes only what it installs, and can be repeated. ln -s follows the link of the first run, so the second run makes a link named OpenNTN to the package inside the package; later runs change nothing. A file named post_install.py in the working directory is overwritten and deleted. Theorems: `C175_runs_partial`, `C175_violated`, `C175_violated_files`.
* **C176** Slant range is the distance of satellite and UT. The slant range is computed on a sphere and the positions are in a plane. Exact relation proved: (D-d)(D+d+2R sin el) = rho^2 - z(2R+2H-z) for distance D, slant range d, horizontal distance rho. For a UT at height zero d is at most D, with equality at the zenith only. Theorems: `C176_slant_partial`, `C176_violated`.
* **C177** UTs see the satellite at the elevation of the scenario. set_topology does not check the elevation, so UTs below the satellite are accepted by a scenario for 50 degrees. For scenes generated for the elevation of the scenario the reported direction has this elevation up to the size of the cell. Theorems: `C177_elevation_partial`, `C177_violated`.
* **C178** Direction at the satellite and slant range belong to one triangle. The direction at the satellite is that of a plane: nadir angle 90 degrees minus elevation. The angle in the triangle of the slant range is smaller, unless the satellite is in the zenith. Theorems: `C178_nadir_partial`, `C178_violated`.
* **C179** A call of the channel model keeps the precision. In single precision a call works exactly when orientations and velocities are float32 and the sampling frequency is a Python number or float32; set_topology does not look at these types. In double precision no call works: the constructor of Topology multiplies a float32 cosine with a float64 speed, tf.complex is given a float64 and a Python number in the Faraday rotation, and the pattern of the circular aperture raises. Theorems: `C179_single_partial`, `C179_double`, `C179_violated`.
* **C182** A TDL model can be created and called in either precision. In double precision the constructor raises while it computes the Doppler shift. In single precision a call works exactly if sampling frequency and (for models with scaled delays) delay spread are Python numbers or float32; the setter of the delay spread accepts any tensor. The call itself would work in double precision. Theorems: `C182_tdl_partial`, `C182_violated`.
* **C183** Seeding Sionna's generator makes the channel reproducible. Only the large scale parameters (lsp.py 127) and the LoS states (utils.py 533) are drawn from config.tf_rng; all other draws use tf.random. Proved: what a run with the same seed has in common (exceptions, LoS states, geometry, free space loss, large scale parameters), and that the delays of an outdoor NLoS link are never determined by the seed, whatever happened before. Assumes that sionna.phy.config.seed seeds config.tf_rng and not tf.random; Sionna's source is not part of the repository. Theorems: `C183_seed_partial`, `C183_not_reproducible`, `C183_violated`.
* **C186** Moving towards the satellite raises the frequency of the specular path. The arrival zenith angle of the LoS path is zod - 180 degrees wrapped to [180, 360), with the azimuth turned by 180 degrees too, so that the horizontal part of the direction is turned twice (C24). The coefficient of the specular path uses these angles as they are: the Doppler shift of the horizontal velocity has the wrong sign. Proved: the exact shift, when it is right and when it is reversed. Theorems: `C186_partial`, `C186_violated`.
* **C187** Specular path and first cluster come from the same direction. Zenith angles of rays are folded into [0, 180] (rays.py 661-664), which undoes the reversed horizontal part of the LoS arrival direction (C24); the specular path (channel_coefficients.py 987-1051) uses the angle unfolded. So the rays of the first cluster arrive from the BS, the specular path from the direction mirrored at the vertical axis. Departure is right. Theorems: `C187_partial`, `C187_violated`.
* **C189** The whole channel is reciprocal in law. Proved for platforms below 600 km, where an uplink call returns exactly what a downlink call with the cross-polarised phases exchanged returns. With the Faraday rotation (600 km and above) it fails: the rotation is applied next to the transmitter in both directions (as TR 38.811 writes it), so with a vertical UT antenna and a slanted satellite antenna at 2 GHz the scattered power in uplink and downlink differs. The power summed over both polarisations at both ends is the same in both directions at every altitude, and so is the specular path (C50). Theorems: `C189_partial`, `C189_link`, `C189_call`, `C189_sum_partial`, `C189_violated`.
* **C190** The installation contains every file that is needed, and only the package. find_packages() also finds the directory test, which has an __init__.py; its test files are installed as a top-level package test (prune in MANIFEST.in only concerns the source distribution). Everything that is needed is installed. Theorems: `C190_modules`, `C190_scenarios`, `C190_tdl`, `C190_cdl`, `C190_only_partial`, `C190_only_violated`.
* **C192** Documented defaults of channel models. The documentation has the defaults of street width (20 m in the code) and building height (5 m) exchanged. All other documented defaults are right, and these two do not change the configuration. Theorems: `C192_defaults_partial`, `C192_violated`.
* **C193** The documented call makes a channel model. The documented call leaves out the elevation angle, which has no default: TypeError. Proved: exactly which calls make a channel model; the documented call works with an elevation angle from 10 to 90 degrees. The documented names rx_array and tx_array are rejected too. Theorems: `C193_accepted_partial`, `C193_with_elevation`, `C193_violated`.
* **C197** Documented parameters are accepted. The documented names rx_array and tx_array of the channel models and min_bs_ut_dist of gen_single_sector_topology are rejected with a TypeError. All other documented parameters are accepted. Theorems: `C197_parameters_partial`, `C197_violated`.
* **C198** Calls in documented examples succeed. The channel models of the examples lack the elevation angle, and those in utils.py pass the unknown parameter o2i_model: TypeError. The examples of arrays, TDL models and topologies succeed. Theorems: `C198_examples_partial`, `C198_violated`.
* **C203** Only heights of satellites are accepted. The check is commented out (utils.py 1149-1153, with the remark that a future version will restore it), so every non-negative height is accepted; below 600 km the channel silently has neither Faraday rotation nor Doppler shift of the satellite. Theorems: `C203_height_partial`, `C203_violated`.
* **C205** Clusters of a LoS link fan out from the LoS direction. The polynomial that corrects the zenith profile for the K-factor (rays.py 613-615, TR 38.901 equation 7.5-15) is negative below about -10 dB. There the zeniths are ordered the other way round, and close to this value they leave every bound. In the Ka band of the urban scenario at 30 degrees, where the K-factor has mean 12.48 dB and deviation 14.23 dB, this happens to more than one LoS link in fifty (proved). Azimuths are proved for all common K-factors, zeniths for at least -7 dB; the order of the zeniths alone is proved above, and refuted below, one value of the K-factor between -10 and -9.99 dB. Theorems: `C205_fan_partial`, `C205_inverted`, `C205_threshold`, `C205_violated`, `C205_frequency`.
* **C210** UTs that are dropped apart stay apart in single precision. The coordinates of the UTs have the satellite's ground point as origin, so that single precision places the UTs on a grid of 4 m for a geostationary satellite at 30 degrees of elevation (16 m at 10 degrees). Proved: the distance is kept up to (slant range + 11 isd) / 2^22, half a metre up to a slant range of 2000 km. Missing: far satellites, where it fails; two UTs dropped 1.5625 m apart come to lie on one point, and the Cholesky factorisation of their correlation matrix fails. Theorems: `C210_model`, `C210_distance_partial`, `C210_low_partial`, `C210_coincide`, `C210_singular`, `C210_violated`.
* **C211** Range of taps and subcarrier grid survive single precision. Python multiplies in double precision, tf.math.ceil rounds the product to single precision first. Proved: products that are integers give the documented lag exactly; otherwise the lag is the documented one or one less, and the margin is six taps up to 2^-22 of the delay. Missing: the documented formula in all cases; for 20 MHz and 3.00000005 us the product 60.000001 is rounded to 60 and the range is one lag shorter. Theorems: `C211_model`, `C211_lag_partial`, `C211_subcarriers`, `C211_violated`.
* **C214** Directions keep their accuracy in the coordinates of an array. The arccosine in _gcs_to_lcs is taken of a rounded cosine: in single precision every direction within 3/16384 rad of the vertical axis of an array is taken for the axis itself. The error of a component is proved to be at most 1/300 (0.2 degrees) everywhere, and at most 2^-15 divided by the sine of the local zenith. The clipping keeps the arccosine defined. Theorems: `C214_model`, `C214_partial`, `C214_violated`.
* **C218** TDL taps keep their accuracy over a simulation. Fails: the phase is the rounded product of Doppler frequency, time and cosine without reduction, so single precision loses the phase at some 10^7 rad (witness: half a radian after four seconds with a Doppler shift of 670 kHz). Proved: with N sinusoids and a rotation of M rad since the first sample the error is at most sqrt(N)(1e-5 M + 1e-7 N + 5e-6), thus a tenth up to 2000 rad for N up to 20; the bound also holds in double precision. Spatial correlation is not rounded here. Theorems: `C218_model`, `C218_partial`, `C218_violated`.
