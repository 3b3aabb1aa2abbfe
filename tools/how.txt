C01|Scenario|Constructor as `Except`, branch by branch; success is equivalent to an independent admissibility predicate, and every failure is the right exception.
C02|Num, Scenario|Python's round half to even on the reals; floor arithmetic.
C03|Tables, Scenario|The JSON tables are data; presence of every needed name is checked in the kernel for all tables and rows and lifted to all real configurations by C02.
C04|Tables, Scenario|As C03, for the admissible ranges of the values.
C05|Scenario, Lsp|Matrix assembled as in the code; exact rational elimination with positive pivots over all tables (kernel), lifted to positive definiteness over the reals; the Cholesky factor is constructed.
C06|Lsp|Entry by entry comparison with a list of pairs written from the standard. For tables of any content: the matrix holds the coefficient stored for each pair.
C07|Scenario|Decision logic, injectivity of the file choice.
C08|Tables, Scenario|Kernel check of the LoS probability tables, lifted by monotonicity of rounding.
C09|Tables, Rays|Scaling constant against the tabulated function of the cluster number.
C10|Topology|State machine over unbounded histories; refinement to "latest given value" per argument.
C11|Topology|Assertion raised iff an argument was never given, over all histories.
C12|Topology|Derived attributes equal a recomputation from the latest arguments (refinement).
C13|Topology|Same refinement for atmosphere parameters.
C14|Topology|Losses equal a recomputation from current parameters.
C15|Topology|Invariant over histories; Bernoulli draw compared with the tabulated probability.
C16|Channel|Channel model as state machine with explicit random stream; induction over calls.
C17|Channel|As C16: new draws after every relocation.
C18|Channel|Success of generation for every history with complete topology.
C19|Channel|Reachable atmospheres of a channel object.
C20|Geometry|Euclidean norm in the plane; metric axioms.
C21|Geometry|Slant range solves the law of cosines with the Earth's centre; uniqueness of the positive root.
C22|Topology|Per batch example altitude.
C23|Geometry|Spherical angles determine the unit vector from BS to UT.
C24|Geometry|Same for arrival.
C25|Geometry|Indoor and outdoor parts add up, ranges.
C26|Lsp|Real analysis on the map from draws to parameters; caps and positivity, `-inf` explicit.
C27|Lsp|Law of the parameters as an affine image of the normal draws: means, deviations, correlations as exact quadratic forms.
C28|Lsp|Entrywise: symmetric, unit diagonal, exponential in the planar distance with the correlation distance of the common state, zero across states.
C29|Lsp, Lemmas/ExpKernel|exp(-r/D) is a positive definite kernel in the plane: min-kernel by induction, average over directions, Schur products. PSD always; a factor exists iff no two UTs of one state coincide.
C30|Lsp|Mean of ZSD against the table.
C31|Rays|Number of clusters of the link's state.
C32|Rays|Sortedness, first delay zero, scaling by the cubic polynomial of K.
C33|Rays|Sorting permutation; unscaled delays of inactive clusters are larger than all active ones for spreads up to 20 ms.
C34|Rays|Probability vector; exponential decay and log-normal shadowing; Rician mixture for the angles.
C35|Rays|Non-negative, sum 1, inactive zero; failure as 0/0 is explicit.
C36|Rays|Centre of the first cluster equals the LoS angle; definedness of ray generation.
C37|Rays|Wrapping of azimuth and zenith: range, same direction, same cosine, for all generated rays.
C38|Rays|Coupling permutes the 20 rays within each cluster (argsort of draws as permutation).
C39|Rays|Ray offsets sum to zero.
C40|Rays|Positivity, dB value affine in the draw.
C41|Rays|Departure angles at a satellite.
C42|Coeff|Rotation matrices orthogonal with determinant one; inverse; composition order.
C43|Coeff|LCS/GCS angle conversion against the rotated unit vector.
C44|Coeff|Field rotation preserves norm, agrees with the rotation of the tangent basis.
C45|Coeff|Moduli of phase terms, unitary Faraday rotation, power of a LoS coefficient.
C46|Coeff|Sub-clusters partition the rays; sums agree.
C47|Coeff|Number, order and delays of paths.
C48|Coeff|Rician combination and power ratio.
C49|Coeff|Bound of the phase rate by orbit speed times cosine of elevation; guards.
C50|Cir|Exchange of roles gives the transposed response.
C51|Cir|Axis permutation as index functions.
C52|Pathloss|Gain in dB as a sum, per link and flag.
C53|Pathloss|Dependence on the draw.
C54|Pathloss|Variance of the normal combination.
C55|Pathloss|Monotonicity and doubling law in distance and frequency.
C56|Pathloss|Signs and sums of the losses; the sign of the radicand follows from monotony of sin(11t/6) / (sin t cos(t)^(5/6)), whose derivative is positive because sine is concave; threshold located by Taylor bounds.
C57|Pathloss|Comparison with the ITU expression.
C58|Antenna|Centred, planar, regular spacings for all sizes.
C59|Antenna|Injectivity of positions.
C60|Antenna|Index lists of polarisations partition the antennas.
C61|Antenna|Patterns: non-negative, bounded by boresight, split over slants.
C62|Antenna|Slant angles of each polarisation type.
C63|Ofdm|Frequencies for even and odd sizes.
C64|Ofdm|Frequency response as a sum of exponentials; normalisation.
C65|Ofdm|Taps as sinc samples; normalisation.
C66|Ofdm|DFT of taps.
C67|Ofdm|Smallest range with the margin of six lags.
C68|TopoGen|Elevation reproduced by the generated satellite position.
C69|TopoGen|Satellite orientation towards the centre.
C70|TopoGen, Topology, Channel|Generated topologies run through the model of `set_topology` succeed.
C71|TopoGen|Indoor state from its probability.
C72|TopoGen|The exact exception for all arguments.
C73|TopoGen|Default values per scenario.
C74|TopoGen|Rigid motions.
C75|Coeff|Speed of the satellite from Kepler's law.
C76|CorrMat|Hermitian, unit diagonal, positive definite by explicit factorisation.
C77|CorrMat|Characteristic function: Hermitian, PSD.
C78|Tdl, DelayTables|Powers of loaded models sum to one.
C79|Tdl|Accepted names.
C80|Cdl|Outcome of a call.
C81|Install|Text edit on lists of lines.
C82|Cir, Channel, Rays, Coeff, Pathloss|End to end: all stages composed over all histories.
C83|Ofdm|Grids of time instants and frequencies.
C84|Ofdm|DFT of sinc taps equals the direct response for whole-sample delays.
C85|TopoGen|Satellite panel faces down.
C86|Tdl|Covariance of correlated taps as exact quadratic form.
C87|Tdl, Lemmas/Phases|Average over independent uniform phases, as integrals.
C88|Tdl|Doppler of satellite and UT.
C89|Tdl|Delays scale with the spread.
C90|Cdl|Powers of loaded models.
C91|Cdl|Ray angles and role exchange.
C92|Rays|Inverse Gaussian profile, scaling constants, centring.
C93|Rays|Inverse Laplacian profile.
C94|Rays|Shape of sign and coupling draws.
C95|Rays|Unit of the offset.
C96|Pathloss, Spec/Itu|Recommendation written separately, term by term.
C97|Pathloss, Spec/Itu|As C96.
C98|Antenna|Real analysis; Bessel integral differentiated under the integral, differential equation by integration by parts.
C99|Gain|Sum over the grid in closed form.
C100|Coeff, Lemmas/Phases|Coefficients written as sums of phasors with independent phases; orthogonality of phasors under the product measure.
C101|Coeff|Bound and attainability of range rates on circular orbits in Euclidean space (Cauchy-Schwarz on the component perpendicular to the position).
C102|O2i|Formulas compared with the tables of the standard; monotonicity of the exponentials.
C103|O2i|As C101.
C104|Lsp, Tables, Spec/Standard|Kernel comparison of all table cells with the values recorded in the test suite, lifted to all requests by the nearest-row lemma.
C105|Lsp, Tables, Spec/Standard|As C104, for the assembled matrix.
C106|Lsp, Tables, Spec/Standard|As C104, combined with C28.
C107|Scenario, Tables, Spec/Standard|As C104.
C108|Pathloss, Lsp, Tables, Spec/Standard|As C104, combined with C55.
C109|Scenario, Tables, Spec/Standard|As C104.
C110|Scenario, Pathloss, Tables|Kernel comparison of the uplink with the downlink tables, lifted to all requests.
C111|Antenna, Spec/Antenna|Case analysis of the argument checks of the constructor against the documented combinations.
C112|Antenna, Spec/Antenna|From the closed form of the positions (C58), with the defaults written in metres in the specification.
C113|Tdl, Lemmas/Fading, Spec/Bessel|The tap is a sum of phasors; orthogonality of independent uniform phases leaves one integral over each angle sector, and the sectors add up to the integral that defines J0.
C114|Tdl, Lemmas/Fading|Orthogonality of independent uniform phases.
C115|Coeff, Spec/Steering|Product of the three elementary rotation matrices compared entry by entry with the matrix of the code.
C116|Coeff, Spec/Steering, Spec/Antenna|Field components are pinned by their defining equations (unique away from the poles), the phases are exponentials of cycles; the code's product is regrouped.
C117|Coeff, Spec/Steering|As C116 without random phases; a concrete link separates the two signs of the distance phase.
C118|Pathloss, Spec/LinkBudget|Rational bounds on the slant range and on powers of ten enclose the logarithm.
C119|Pathloss|Monotonicity of the slant range (C21) and of the sine.
C120|Topology, Channel, Coeff|Induction over call histories; splitting and sorting of paths commutes with additive maps of the coefficients.
C121|Cir|Unfolding of the call; sample m k at rate m f is taken at the time of sample k at rate f.
C122|Topology, Channel, Cir|Every step of set_topology and of the call commutes with the selection of examples (Cholesky factors are unique); induction over call histories. The negation is a batch with satellites at 600 km and 1200 km.
C123|Topology, Channel, Cir|The same commutation for displacements.
C124|Topology, Channel, Cir|Azimuths are turned up to full turns by every step; local angles, polarization angle, array phases and Doppler only depend on azimuth minus bearing. Induction over call histories.
C125|Topology, Channel, Cir|Induction over call histories: attributes are the latest arguments of successful calls (channel_latest); the inputs of ray generation are read off the updated scenario.
C126|Topology, Channel|Every step of the update reads only what the call stored or an earlier step of the same update wrote; case analysis over the steps.
C127|Getters, Topology|Invariant over call histories: all losses exist once an update succeeded; the values follow from the freshness invariant of C12.
C128|Additional|The quotient of the two permittivities is computed with complex numbers in the specification; both relaxation frequencies are shown positive on the temperature range.
C129|Additional|The loops are unrolled to the sums of the specification; the cosine of the tilt is zero; the violation bounds the exponents at one Ka band frequency with rational bounds of the exponential.
C130|Additional, Getters|Sign analysis of every square root and denominator; the hypotheses on the state come from C127. RainFails: interval bounds of the four P.838 curves over the accepted bands (nine intervals of log10 f).
C131|ArrayAttrs, Antenna|The odd rows of the index table are the even rows shifted by one; positions by the closed form of C58.
C132|Tdl, Spec/Profiles|Comparison of every table with the profile, then the normalisation of C78 and C89.
C133|Cdl, Spec/Profiles|As C132, with C90 and C91.
C134|Model/Cir, Model/Rays, Model/Lsp, Model/Channel|For line of sight the K-factor of a UT is 10^(mu+sigma Z) with Z standard normal (from the Cholesky factorisations) and sigma > 0 in all tables; so it avoids the finitely many roots of the three scaling polynomials almost surely. Outside the roots all quotients in the ray generation are by numbers other than zero; the rest of the pipeline is total (`generation_numbers`, also used for C82).
C135|Model/Topology, Model/Channel, Model/Cir|A simulation relation between the state with all UTs and the one with the first U' is preserved by every operation. Everything but the spatial correlation is per UT; for that, the factor of a leading submatrix is the leading part of the (lower triangular, unique) Cholesky factor, and lower triangularity is an invariant of the reachable states.
C136|Model/Lsp|The law of linear combinations of independent normal draws depends only on the inner products of their coefficients (characteristic functions); for one parameter these are the spatial correlations of the selected UTs. Witness of the negation: the second of two UTs 10 m apart, with and without the first.
C137|Model/Precision|Element types are modelled separately from the numbers: each modelled function computes the element types of its results or reports the first combination of tensors of different types. Single precision is a case analysis over all kinds of arguments; in double precision every path ends in an error.
C138|Model/Topology, Model/Scenario|The draws of a call are random variables on any probability space (Spec.TopoRandom: independent, with the laws of tf.random.uniform and tf.random.normal). The attribute after the call is written as a measurable function of the draws of the link (Spec.UpToDate of C12), so independence carries over, and the probability is the length of an interval, with the value of C107.
C139|Model/Topology, Model/Pathloss|The path loss is an affine function of the normal number belonging to the LoS state (C108), and that number is independent of the one deciding the LoS state; the image of the standard normal law under an affine map is computed with Mathlib.
C140|Model/Coeff|A coefficient is written as mean plus a sum of ray weights times unit phasors of independent uniform phases; products of phasors of different rays average to zero (Lemmas/Fading). The ray weights are computed from the plane-wave and Doppler phases; which rays share a path is stated through a map from rays to paths.
C141|Model/Coeff, Model/Ofdm|The frequency response (C64) is again a sum of phasors with weights turned by delay times frequency; the covariance follows as in C140.
C142|Model/Coeff|The sorting permutation is the witness; the coefficient is written as mean plus weights times unit phasors as in C140, with the ray-to-path map being the cluster of the ray.
C143|Model/Tdl|Positive definite complex matrices have a Cholesky factor (Lemmas/Cholesky, from the LDL decomposition of Mathlib), so the correlation step is a linear map whose covariance is known from C86; coefficients are constants plus weights times unit phasors, so second moments are sums over the phases.
C144|Model/Rays|The image of the uniform law under -a ln x is computed as the measure of an interval, normal laws by affine maps; the functional relation to the clusters is unfolded from `raysCall` with the sorting permutation as witness, for every draw.
C145|Model/TopoGen|The laws are images of uniform laws under affine maps; independence is preserved by applying functions to independent draws. For the negation two events with positive probability are exhibited which exclude each other.
C146|Model/Rays|Two independent numbers without atoms almost never agree, so the sets of arrays with a given sorting permutation have full measure together; permuting coordinates preserves the product law and maps these sets to each other, hence each has measure 1/20!. Measurability of the sorting permutation gives independence. The relation to the rays is unfolded from `raysCall`.
C147|Model/Rounding, Model/Coeff|The expression is evaluated with a rounding after each operation, for an arbitrary function that rounds to a nearest number of the IEEE format (Spec/Rounding; Lemmas/Rounding proves existence, the relative error and exact evaluation). Counting relative errors gives the bound; the witness is evaluated operation by operation with pi to 20 digits.
C148|Model/Rounding, Model/Coeff|As C147; products that may vanish or underflow are bounded with an absolute term.
C149|Model/Rounding, Model/Geometry, Model/Pathloss|Relative errors of the positive terms of the radicand, the root is 1-Lipschitz in the sine term, then the subtraction; the logarithm turns the relative error of the range (at least the altitude) into decibel.
C150|Model/ShapeOps, Model/Shapes|Every operation on shapes is evaluated symbolically in the sizes; the histories by induction over the calls; the number of clusters comes from the tables (C04).
C151|Model/ShapeOps, Model/Shapes|The same evaluation with independent sizes for every argument: each operation with a mismatch fails, or enlarges a dimension that a later selection compares with that of the locations.
C152|Model/Rays|Pairs of sign and number are independent (generating pi-systems of rectangles); the law of a pair is a product whose image is a mixture of two normal laws; the shape is the same for all draws because the profile determines it. Moments by integration.
C153|Model/Ofdm|Orthogonality of roots of unity (geometric sum), then inversion and Parseval from the closed form of C66; normalised taps by C65.
C154|Model/ShapeOps, Model/ShapesConvert, Model/Shapes, Model/Tdl|Symbolic evaluation of the shape operations for arbitrary sizes; composed with C150; the sizes of the TDL tables are computed from the files.
C155|Model/Lsp|Linear images of independent normal draws are jointly normal; the Cholesky factor of a block matrix is a block matrix, so the parameters of a state are functions of the draws of that state.
C156|Model/Tdl|Success of the factorisation is equivalent to positive definiteness of the matrix read (LDL decomposition in one direction, triangular determinant in the other); the matrix read is the given one if it is Hermitian and depends on the lower triangle only
C157|Model/Precision|case analysis on the kinds of the arguments, separated by the part of the function that uses them
C158|Model/Precision, Model/Tables, Model/Scenario|evaluation of the list of integer cells; C158_whole checks this list against the modelled tables
C159|Show|the three vectors are the columns of the rotation, of length one; scaling keeps direction
C160|Show|case distinction on the two conditions; witness with UTs at the origin and BS at 600 km
C161|Show, Topology|LoS invariant of C15 (indoor UTs are never LoS) makes the two filters disjoint; permutation of a filtered list and its complement; witness with an indoor UT
C162|ShowArray, Antenna|partition of the indices (C60), slants of the elements (C62), field at boresight compared with the direction of the marker
C163|Model/Ofdm|Parseval's identity on the circle for a finite sum of rotations: the Fourier coefficients of a path are the shifted cardinal sines, those of the taps are zero outside the window; the tail is bounded by a telescoping sum
C164|Model/ShowElement, Model/Antenna|the grid angles are odd multiples of pi/198 and pi/99 away from boresight; the bound on the aperture gain uses |J1| <= 1 and the smallest angle to boresight
C165|Model/ShowElement, Model/Antenna|closed form of the positions filled by the loops, list manipulation
C166|Model/TopoGen|the azimuth is the arc cosine of the draw and unique almost surely; no uniform law has the values of this distribution function at 0, 30, 60 and 90 degrees
C167|Model/Coeff, Model/Cir|The coefficients are written as sums of phasors (`coeffCall_phasors`); uniform phases are invariant under rotation of the circle (`phasor_turn`, by the invariance of Haar measure), so the joint law of all phasors is (`phasors_turn`), and the coefficients are a measurable function of the phasors. Paths and links use disjoint blocks of the phases, and functions of disjoint blocks of independent variables are independent (`iIndepFun_blocks`, by pi-systems).
C168|Model/Rounding, Model/Scenario|The comparison of system_level_scenario.py 101 evaluated operation by operation in the arithmetic of Spec/Rounding; relative errors of the two conversions give the bound, and evaluation of the roundings at 2 GHz the counterexample. C168_model links the exact case to the constructor of Model/Scenario.
C169|Model/Tdl|A tap is a constant plus a sum of N independent phasors of equal amplitude, for any times and antennas. The fourth moment of such a sum is computed by induction over the phasors. For the limit the characteristic function of one phasor is expanded to second order with its third-order bound, its N-th power converges to that of the circular normal law, and Levy's theorem gives convergence; the disc of radius sqrt(y) has a boundary of measure zero and its probability is computed in polar coordinates.
C170|Model/Coeff|A path is a constant plus a finite sum of phasors (four per ray), and the fourth moment of such a sum (as for C169) gives the variance exactly: (mean power)^2 - (constant power)^2 minus the sum of fourth powers of the amplitudes.
C171|Model/Imports|An interpreter of Python's import system (sys.modules, partially initialised modules, attributes of packages) executes the import statements of all files; the runs from each start are computed by the kernel with all names of Sionna present, a monotonicity lemma (`run_full`) transfers them to every set of names, and induction over the session gives all orders.
C172|Model/Imports|every complete state reached by a session is one of those computed for C171; in each the check of the constructor is evaluated for all array classes of both copies
C173|Model/Imports|kernel computation of the failing imports, induction over the session
C174|Model/InstallScript, Model/Install, Model/Imports|The script as a function on the files of the machine: what it does to each path is computed symbolically for every directory; C81 gives the inserted line and C171 the imports.
C175|Model/InstallScript, Model/Install|the effect of the first and of a repeated run on every path, and C81_idempotent for the init file; induction over the runs
C176|Model/Geometry, Model/Topology, Model/Getters|invariant of reachable states (C10) for the attributes, the quadratic equation of C21 for the slant range and the distance of the positions; their difference factors
C177|Model/Geometry, Model/TopoGen, Model/Getters|invariant of reachable states, polar form of the LoS direction, C68 for the generated positions
C178|Model/Geometry, Model/Topology, Model/Getters|invariant of reachable states and the polar form of the LoS direction; monotonicity of the sine
C179|Model/Precision, Model/PrecisionCir|the element types of all tensors of a call are computed; case split over switches and kinds
C180|Model/Precision, Model/PrecisionCir|case split over the precisions
C181|Model/Precision, Model/PrecisionCir|element types of the three functions; case split over kinds and precisions
C182|Model/Precision, Model/PrecisionCir|element types of constructor and call; case split over kinds and branches
C183|Model/Topo, Model/Channel, Model/Cir, Model/Rays, Model/Coeff|two runs as an inductive relation between states; equality of all attributes but indoor distance and basic path loss is preserved by every step of the update; for the negative part the delays of all paths sum to different numbers for two draws of cluster delays
C184|Model/Rounding, Model/Ofdm|relative errors of products of rounded factors, an absolute error for underflow; the unit circle and the sinc function (an integral of cosines) are Lipschitz
C185|Model/Topology, Model/Pathloss|total probability over the LoS state from C138 and C139; moments of a mixture of normal laws
C186|Model/Coeff, Model/Topology, Model/Geometry|the arrival direction of C24 for the positions passed last (invariant of C12), in the exponent of the Doppler term
C187|Model/Rays, Model/Geometry, Model/Coeff|the folded zenith angles of C36 have the sine of the true direction; addition theorems bound the inner product by the ray offsets
C188|Model/Coeff, Model/Antenna|the fields of the two polarisations are the columns of a scaled orthogonal matrix, which rotations keep; C100 for the four antenna pairs
C189|Model/Coeff, Model/Cir|each ray is its own reverse with the two cross-polarised phases exchanged, which preserves the product of uniform laws; C188 for the sums; C100 for the counterexample
C190|Model/Packaging|The selection of packages, modules and data files as a filter of the files of the repository, monotone in the files; the files opened are those of C07 and of the name chains of TDL and CDL; the memberships are computed by the kernel.
C191|Construct|Python's assignment of arguments to parameters is modelled for arbitrary signatures (fill_iff: positional first, then keywords, then defaults, each once) and applied to the three constructors on the way
C192|Construct|from C191; two calls that differ in the two lengths only give equal configurations
C193|Construct|exact condition for acceptance from the rule of C191 and the condition for scenarios (C01); the documented call lacks a required parameter
C194|ConstructArray|the rule for Python calls of C191, with the constructor of arrays (C111); Antenna and AntennaArray by what they pass on
C195|ConstructArray|the rule for Python calls of C191, with the constructor of TDL models (C79)
C196|ConstructArray|the rule for Python calls twice: for the generator, and for the positional call inside
C197|Documented|one call per callable that names all its parameters succeeds; a call with an unknown name fails
C198|Documented|each example evaluated with the constructors of C194, C195 and C196
C199|Simulation|C145 with independence: almost surely no UT is below the satellite and no two coincide; then C70 for set_topology and C134 for the generation call; the objects by C193 and C194
C200|Model/RoundingDrop, Model/TopoGen|Rounding to nearest is monotone, so the rounded slant range is not below the rounded height and the first radicand is not negative; it is zero or at least one. A draw of at most 1 - 2^-23 compensates the roundings of root and product, so the square of the first coordinate does not exceed the radicand. Relative errors of all terms, related to the square of the slant range, give the distance.
C201|Model/Tdl, Model/Cdl, Model/DelayTables|Spread and mean excess delay are defined for lists of powers and delays. Scaling lemmas reduce every object to its profile (C132, C133); there the powers are enclosed by multiples of 10^-9, which the kernel checks with integer powers, and the enclosures of the three moments enclose the spread.
C202|Model/Coeff, Model/Tdl|Band limitation is membership in the complex span of oscillations, so sums and multiples stay inside. The Doppler factor of a direction is one oscillation, its frequency is bounded by Cauchy-Schwarz; reduction to paths and the Ricean combination only add and scale.
C203|Model/TopoGen, Model/Coeff|The defaults and all heights in the range are accepted and the satellite is placed there; every non-negative height succeeds as well, which gives the counterexample; below 600 km both conditions of the coefficient generator are false.
C204|Model/Coeff, Model/Antenna|The array offset is a product of a receive and a transmit phase, the field response a sum over two polarisation components; the matrix is therefore a product through a space of dimension two, or one if the response does not depend on the antenna of one end. For the paths of the output the ranks of their waves add up.
C205|Model/Rays, Model/Tables|Lower bounds of the two cubic polynomials on half lines; profile equations of C92 and C93 give order and size of the deviations. The zenith polynomial increases up to zero and has one root; and the law of the K-factor (C155) with a lower bound on the normal distribution.
C206|Model/Coeff, Model/Antenna, Model/Topology, Model/Ofdm|Each ray is a constant times an oscillation (C202); the constant is bounded by the gains (C61) with Cauchy-Schwarz, the oscillation by the distance of phases. Bounds add up over the rays of a path as assigned by C47.
C207|Model/Coeff, Model/Ofdm|The covariance is the sum of mean ray powers times phases that advance with Doppler and delay (C141); its projection on the phase of a reference is bounded by 1 - x^2/2 <= cos x, and Doppler shifts deviate from that of the satellite by at most the speed of the UT (C202).
C208|Model/Coeff, Model/Antenna, Model/Scenario|An upright array has polarisation angle 0 or pi, so its field has one component with the element gain; inserted in the average power of C100. Monotonicity of the Faraday angle with frequency and bounds on pi for the bands.
C209|Model/Coeff, Model/Antenna|The phase of an element towards a direction is linear in its indices (arrayOffset and positions of the array), so the beam sum is a product of four geometric sums, each with modulus |sin(pi n x) / sin(pi x)|. |sin n x| < n |sin x| unless sin x = 0 gives the lobes; triangle inequality for the bound.
C210|Model/RoundingUts, Model/RoundingDrop, Model/Rounding, Model/Lsp|Rounding errors of displacement, sum, difference and norm, added up; the centre point is bounded by C200. The witness evaluates every operation: the numbers near the centre are multiples of four. Equal rows of a correlation matrix contradict a factor with positive diagonal.
C211|Model/RoundingTaps, Model/Rounding, Model/Ofdm|Error of the product in double precision; numbers that close to an integer are rounded to it, because the spacing of single precision is larger; monotonicity gives the bounds on both sides. Multiples of 15000 are numbers of the format up to 8947, by exhibiting mantissa and exponent.
C212|Model/RoundingAngles, Model/Rays|The truncated remainder is exact; the addition of 360 and the subtractions are bounded by monotone rounding, because 0, 180 and 360 are numbers of the format; the error is the sum of at most four roundings.
C213|Model/RoundingClusters, Model/Rays|Order and signs follow from monotone rounding and from x - x = 0; the rounded scaling of LoS delays stays above 0.07 by an error analysis of the cubic. The sum is an inductive relation over all bracketings and permutations: sums of numbers of the format do not underflow, so each addition has a relative error of one unit, and the sum is not below any term.
C214|Model/RoundingLocal, Model/Coeff|Error analysis: entries of the rotation are accurate to 9.4e-7 and components to 4.3e-6, using that the exact rotation is orthogonal; the sine of the local zenith is the root of 1 - z^2, which loses half of the digits near the poles, and this is the only loss. For the witness, a number of the format within 2^-25 below one does not exist, so the cosine of 3/16384 rounds to one.
C215|Model/RoundingArray, Model/RoundingLocal, Model/Coeff|A lemma bounds the error of a rounded sum of three products whose factors have errors relative to a scale; it is applied to the rotation of the antenna and to the projection on the direction. The wavenumber has a relative error of seven units. The exponentials turn phase errors into errors of the factor, and the complex product adds 6e-7.
C216|Model/RoundingField, Model/Coeff|Real and imaginary part of the displacement are accurate to 5e-6 together, and their exact modulus is the sine of the local zenith (psi_spec); the phase of a complex number changes by at most twice the relative change. The exact components are identified by C44 and by uniqueness of local angles off the axis.
C217|Model/RoundingAperture, Model/Antenna|The quotient J1(x)/x is an integral of sin(x s)/x, whose change is at most a quarter of the change of x^2 (mean value theorem), so the error of the arc cosine near the axis does not matter. The largest number below one is at most 1 - 2^-25, which keeps the denominator above 0.009. Cases: behind, axis, quotient, each against the exact pattern in any case.
C218|Model/RoundingTdl, Model/Tdl|Error of every operation in turn: arrival angle of a sinusoid, its phase, the sum in any order (induction on the order of addition), normalisation and power, specular path. Witness: a number above 2^24 plus one half is rounded to an even integer, so the initial phase is lost; the library has a cosine that is one next to 2 pi.
C219|Model/RoundingPattern, Model/Antenna|Errors of the relative angles, of the square and of the sum are followed operation by operation; the minimum does not enlarge an error, and an error of the exponent becomes a relative error of the power. The reference is the closed form of both patterns (C98). Floor: the limits 25 and 30 and their negatives are numbers of the format and rounding is monotone.
C220|Model/RoundingLsp, Model/Lsp|A sum of n numbers in any order of rounded additions errs by at most 6.1e-8 (n - 1) times the sum of the magnitudes (induction over the order). With Cauchy-Schwarz for the rows this bounds both matrix products; the error of the exponent becomes a relative error, and the minimum does not enlarge it. C220_rows: exact factors of correlation matrices satisfy the condition on the rows.
C221|Model/RoundingDirections, Model/Rays|Clipping and rounding commute because rounding is monotone and keeps 1, so the clipped power is the rounded exact one and its logarithm errs by at most 6.1e-8. A difference of roots is at most the root of the difference, which bounds the effect near the strongest cluster by 2.5e-4. The other operations are followed one by one; in LoS the deviation of the first cluster cancels up to two roundings.
C222|Model/RoundingGain, Model/Cir, Model/Pathloss|Each operation is followed with its relative error and an absolute error of 2e-38 for results below the range of normal numbers. The exponent errs by at most 1.2e-6, so the power of ten errs by 5.6e-6 relative; the gain is at least 1e-24, so its product with the shadow fading does not underflow. The product with a real number has no contribution of the imaginary part because zero is kept by rounding.
C223|Model/RoundingRays, Model/Coeff|`Close e B` says that the exact value is bounded by B and the error by e B. Products add the fractions and 6e-7, sums keep the larger fraction and add 1e-7, so the chain is followed factor by factor. The sum of rays is bounded by induction over the order of additions, for real and imaginary parts. field_component_le and factors_unit show that the bounds hold for the arrays of the code: the root of the maximum gain, and one.
C224|Model/RoundingMovement, Model/Coeff|The projection of the velocity is a scalar product of three terms (dot_near). Its error enters the exponent in proportion to wave number and time; the operations on the exponent are those of C148. The result has the form that C223 requires of the factor of movement.
C225|Model/RoundingGain, Model/Cir, Model/Pathloss|The factors of LoS and NLoS are at most one, so the exact combination does not enlarge errors (combine_contract); the rounding of the combination and of the gain is that of C222, applied to inputs that carry errors.
C226|Model/RoundingPaths, Model/RoundingRays, Model/RoundingGain, Model/Coeff, Model/Cir|Without rounding the relation determines exactly the model of C47 (C226_model). Sorting does not enlarge deviations (sorted_near, by counting); the permutation is that of the two sorting orders; sums of rays as in C223, combination and gain as in C225.
C227|Model/Rounding, Model/RoundingRays, Model/RoundingMovement, Model/RoundingArray, Model/Coeff|The computed phase is the exact phase of another path length; C223_los for the link with that length, and the length enters the exact coefficient as a factor of modulus one (los_turn). In products with conjugates the factor cancels.
C228|Model/Rounding, Model/RoundingOfdm, Model/RoundingRays, Model/Ofdm|Phases and sinc arguments as in C184 plus the shift due to the errors of the delays; relative errors of factors add up in complex products (close_mul), and the sum in any order adds 2.2e-6 (ray_sum_close).
C229|Model/RoundingNormalize, Model/Ofdm|Long sums in any order by induction over the tree of additions (long_sum_err); errors of magnitude, square, sum, quotient and root in turn, then division; the energies are compared entry by entry.
C230|Model/RoundingPaths, Model/RoundingGain, Model/RoundingOfdm, Model/Coeff, Model/Ofdm|C226_link gives coefficients and delays up to an exchange of paths; C228_frequency converts them; undoing the exchange changes the sum by the LoS component only, whose delay moves by twice the error of a delay (response_reorder).
C231|Model/RoundingPaths, Model/RoundingGain, Model/RoundingOfdm, Model/Coeff, Model/Ofdm|As C230, with C228_time for the conversion; undoing the exchange of paths changes the sum by the LoS component only, and the sinc function is Lipschitz (tap_reorder).
