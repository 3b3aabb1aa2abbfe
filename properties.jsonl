{"id": "C01", "title": "Constructor accepts exactly the documented configurations", "statement": "Building a DenseUrban, Urban or SubUrban model succeeds if and only if the link direction is 'uplink' or 'downlink', the carrier frequency is in [1.9,4] GHz or [19,40] GHz, both arrays are panel arrays built for that same carrier frequency, and the elevation angle is in [10,90] degrees. In every other case an assertion error is raised and no model object exists.", "quantifier": "every direction string, carrier frequency, elevation angle and pair of array carrier frequencies", "why_tests_cant": "The input space is a product of real intervals; a test can sample a few points of the boundary but cannot show that no accepted point fails later while loading parameters and no rejected point slips through.", "anchors": ["OpenNTN/system_level_scenario.py: SystemLevelScenario.__init__", "OpenNTN/dense_urban_scenario.py: los_parameter_filepath", "OpenNTN/urban_scenario.py: los_parameter_filepath", "OpenNTN/sub_urban_scenario.py: los_parameter_filepath"]}
{"id": "C02", "title": "Elevation angle is rounded to the nearest table row", "statement": "For every accepted elevation angle the parameter row used is one of 10,20,...,90 degrees, it is never more than 5 degrees away from the requested angle, and exact ties go to the even multiple of ten.", "quantifier": "every real elevation angle in [10,90]", "why_tests_cant": "A continuum of angles; ties and the interval ends are exactly where sampling misses.", "anchors": ["OpenNTN/system_level_scenario.py: get_param", "OpenNTN/system_level_scenario.py: num_clusters_los", "OpenNTN/system_level_scenario.py: num_clusters_nlos", "OpenNTN/dense_urban_scenario.py: los_probability", "OpenNTN/urban_scenario.py: los_probability", "OpenNTN/sub_urban_scenario.py: los_probability"]}
{"id": "C03", "title": "Every parameter that the simulation needs is in the tables", "statement": "For every accepted configuration and every parameter name requested anywhere in the simulation chain, both the LoS and the NLoS table contain an entry for the selected elevation row, so no lookup error can happen after construction.", "quantifier": "every scenario, direction, carrier frequency, elevation angle, link state and requested parameter name", "why_tests_cant": "There are thousands of table cells spread over 24 files and a test run touches one row of two files.", "anchors": ["OpenNTN/system_level_scenario.py: get_param", "OpenNTN/system_level_scenario.py: _load_params", "OpenNTN/models/*.json", "OpenNTN/dense_urban_scenario.py: _compute_lsp_log_mean_std", "OpenNTN/urban_scenario.py: _compute_lsp_log_mean_std", "OpenNTN/sub_urban_scenario.py: _compute_lsp_log_mean_std"]}
{"id": "C04", "title": "Table values are physically admissible", "statement": "For every accepted configuration the selected values satisfy: LoS probability strictly between 0 and 1, at least two clusters, delay scaling above 1, positive correlation distances, non-negative standard deviations, non-negative intra-cluster spreads, correlation coefficients in [-1,1] and a positive NLoS clutter loss.", "quantifier": "every scenario, direction, carrier frequency, elevation angle and link state", "why_tests_cant": "One bad cell in 24 files breaks one elevation row only; tests exercise a few rows.", "anchors": ["OpenNTN/models/*.json", "OpenNTN/system_level_scenario.py: get_param"]}
{"id": "C05", "title": "Large-scale correlation matrix admits a Cholesky factor", "statement": "For every accepted configuration and each link state, the 7x7 cross-correlation matrix of the large-scale parameters is symmetric, has a unit diagonal, is positive definite, and therefore has a real lower-triangular factor with positive diagonal whose product with its transpose gives the matrix back: the factorisation can never fail at run time.", "quantifier": "every scenario, direction, carrier frequency, elevation angle and link state", "why_tests_cant": "Positive definiteness is a property of all vectors; the numerical routine only reports failures for the row a test happens to use.", "anchors": ["OpenNTN/lsp.py: LSPGenerator._compute_cross_lsp_correlation_matrix", "OpenNTN/models/*.json"]}
{"id": "C06", "title": "Every pair of large-scale parameters uses its own correlation coefficient", "statement": "In the cross-correlation matrix, the entry for two different large-scale parameters equals the table coefficient of exactly that pair, at both (i,j) and (j,i), and no pair is missing or written twice.", "quantifier": "every pair of the seven large-scale parameters, every table content", "why_tests_cant": "A swapped index still produces a valid-looking symmetric matrix; statistical tests would need huge sample sizes for each of the 21 pairs.", "anchors": ["OpenNTN/lsp.py: LSPGenerator._compute_cross_lsp_correlation_matrix"]}
{"id": "C07", "title": "Direction, band and scenario select the right parameter file", "statement": "The parameter file chosen names the scenario of the class, the LoS state asked for, the S band exactly for carriers up to 4 GHz and the Ka band otherwise, and UL exactly for uplink; different (scenario, state, band, direction) combinations never share a file.", "quantifier": "every accepted carrier frequency, direction, scenario class and link state", "why_tests_cant": "A copy-paste slip in one of 24 names silently loads another valid table, which no output-shape test notices.", "anchors": ["OpenNTN/dense_urban_scenario.py: los_parameter_filepath", "OpenNTN/urban_scenario.py: los_parameter_filepath", "OpenNTN/sub_urban_scenario.py: los_parameter_filepath", "OpenNTN/dense_urban_scenario.py: nlos_parameter_filepath", "OpenNTN/urban_scenario.py: nlos_parameter_filepath", "OpenNTN/sub_urban_scenario.py: nlos_parameter_filepath"]}
{"id": "C08", "title": "LoS becomes at least as likely at higher elevation", "statement": "For a fixed scenario the LoS probability is non-decreasing in the elevation angle over [10,90] degrees and does not depend on the link direction or the band.", "quantifier": "every pair of accepted elevation angles, every scenario, direction and band", "why_tests_cant": "A monotonicity claim over a continuum and over all table files.", "anchors": ["OpenNTN/models/*.json", "OpenNTN/dense_urban_scenario.py: los_probability", "OpenNTN/urban_scenario.py: los_probability", "OpenNTN/sub_urban_scenario.py: los_probability"]}
{"id": "C09", "title": "Angular scaling constant matches the cluster count", "statement": "Two link states (or elevation rows) that use different numbers of clusters use different angular scaling constants, as in the 3GPP tables where the constant is a function of the number of clusters.", "quantifier": "every pair of configurations", "why_tests_cant": "Relational statement across table files and rows.", "anchors": ["OpenNTN/models/*.json", "OpenNTN/system_level_scenario.py: get_param", "OpenNTN/rays.py: _azimuth_angles", "OpenNTN/rays.py: _zenith_angles"]}
{"id": "C10", "title": "Topology arguments persist until replaced", "statement": "After any sequence of set_topology calls, each of UT locations, BS locations, UT orientations, BS orientations, UT velocities and indoor state equals the most recent value that was passed in a successful call.", "quantifier": "every finite history of set_topology calls with every subset of arguments omitted", "why_tests_cant": "Histories are unbounded and each call can omit any of 2^6 argument subsets.", "anchors": ["OpenNTN/system_level_scenario.py: set_topology"]}
{"id": "C11", "title": "A topology call fails exactly when a required argument was never given", "statement": "A set_topology call raises an assertion error if and only if at least one of the six required arguments is omitted and has not been given by an earlier successful call; such a failing call leaves the object unchanged.", "quantifier": "every history and every argument subset", "why_tests_cant": "Exponentially many argument subsets over unbounded histories.", "anchors": ["OpenNTN/system_level_scenario.py: set_topology"]}
{"id": "C12", "title": "Derived geometry is never stale", "statement": "After every call, distances, angles, indoor distances, LoS state, large-scale parameter statistics and basic path loss are those computed from the current UT/BS locations, indoor state and LoS request; they are recomputed exactly when one of those four is passed.", "quantifier": "every history of set_topology calls", "why_tests_cant": "A stale-cache bug needs a particular order of calls to show.", "anchors": ["OpenNTN/system_level_scenario.py: set_topology"]}
{"id": "C13", "title": "Atmospheric parameters persist until replaced", "statement": "Not specifying latitude, liquid water content, rain rate, pressure, temperature, vapour density, humidity, antenna diameter or antenna efficiency reuses the previously given value (documented contract of set_topology).", "quantifier": "every history of set_topology calls", "why_tests_cant": "Needs two calls with different argument subsets for each of nine parameters.", "anchors": ["OpenNTN/system_level_scenario.py: set_topology"]}
{"id": "C14", "title": "Gas and scintillation losses reflect the current atmosphere", "statement": "After every set_topology call the gas and scintillation losses are those computed from the current atmospheric parameters.", "quantifier": "every history of set_topology calls", "why_tests_cant": "Only visible for histories in which atmosphere changes without a change of geometry.", "anchors": ["OpenNTN/system_level_scenario.py: set_topology", "OpenNTN/utils.py: compute_pathloss_gas", "OpenNTN/utils.py: compute_pathloss_scintilation"]}
{"id": "C15", "title": "LoS request semantics and indoor exclusion", "statement": "An indoor UT is never in LoS. If a LoS state was requested by the latest call that passed one, every outdoor UT has exactly that state; if none was ever requested, an outdoor UT is in LoS exactly when its uniform draw is below the LoS probability of its scenario and elevation. Once requested, omitting the argument keeps the request.", "quantifier": "every history, every indoor pattern, every random draw", "why_tests_cant": "Random draws and histories; a test can only check frequencies.", "anchors": ["OpenNTN/system_level_scenario.py: _sample_los", "OpenNTN/system_level_scenario.py: set_topology", "OpenNTN/utils.py: sample_bernoulli"]}
{"id": "C16", "title": "Large-scale parameters are frozen between topology changes", "statement": "With always_generate_lsp=False, all channel realisations generated between two topology updates use the same large-scale parameters; a topology call that changes UT/BS location, indoor state or LoS request draws new ones; a call that changes only orientation, velocity or nothing does not.", "quantifier": "every interleaving of set_topology and channel generation calls and every random stream", "why_tests_cant": "Requires observing internal equality across arbitrary interleavings.", "anchors": ["OpenNTN/system_level_channel.py: set_topology", "OpenNTN/system_level_channel.py: __call__"]}
{"id": "C17", "title": "Fresh large-scale parameters on every realisation when requested", "statement": "With always_generate_lsp=True, every channel generation uses large-scale parameters drawn in that call, never reused ones, and set_topology draws none.", "quantifier": "every interleaving of calls and every random stream", "why_tests_cant": "Same as C16: arbitrary interleavings.", "anchors": ["OpenNTN/system_level_channel.py: __call__", "OpenNTN/system_level_channel.py: set_topology"]}
{"id": "C18", "title": "Channel generation is possible exactly after a successful topology call", "statement": "Generating a channel before any successful set_topology raises an error; after the first successful set_topology it never fails for lack of topology or large-scale parameters, whatever calls follow (including failing ones).", "quantifier": "every interleaving of successful and failing calls", "why_tests_cant": "Unbounded interleavings including failures.", "anchors": ["OpenNTN/system_level_channel.py: set_topology", "OpenNTN/system_level_channel.py: __call__"]}
{"id": "C19", "title": "Atmosphere is configurable through the channel model", "statement": "The atmospheric parameters accepted by the scenario can be set by a user of DenseUrban/Urban/SubUrban through set_topology of the channel model.", "quantifier": "every history of calls on the channel model", "why_tests_cant": "Negative claim over all histories: no call sequence can reach a non-default atmosphere.", "anchors": ["OpenNTN/system_level_channel.py: set_topology", "OpenNTN/system_level_scenario.py: set_topology"]}
{"id": "C20", "title": "Planar distances are Euclidean", "statement": "The BS-UT and UT-UT planar distances are non-negative, symmetric, zero exactly for coinciding planar positions and satisfy the triangle inequality.", "quantifier": "all positions", "why_tests_cant": "Metric axioms quantify over all triples of points.", "anchors": ["OpenNTN/system_level_scenario.py: _compute_distance_2d_3d_and_angles"]}
{"id": "C21", "title": "Slant range obeys the spherical-Earth geometry", "statement": "The BS-UT distance d satisfies the law of cosines (R+h)^2 = R^2 + d^2 + 2 R d sin(elevation) with d >= 0, is the only non-negative solution, lies between h and sqrt(h^2+2hR), equals h at 90 degrees, strictly decreases with elevation and strictly increases with altitude.", "quantifier": "every elevation in [10,90] and altitude h > 0", "why_tests_cant": "Monotonicity and uniqueness over continua.", "anchors": ["OpenNTN/system_level_scenario.py: _compute_distance_2d_3d_and_angles"]}
{"id": "C22", "title": "Each batch example uses its own satellite altitude", "statement": "The BS-UT distance of batch example b depends on the altitude of the BS in example b ('It is possible to set up a different network topology for each batch example').", "quantifier": "every batch of topologies", "why_tests_cant": "Relational claim between batch elements.", "anchors": ["OpenNTN/system_level_scenario.py: _compute_distance_2d_3d_and_angles", "OpenNTN/system_level_scenario.py: set_topology"]}
{"id": "C23", "title": "LoS departure angles point from BS to UT", "statement": "The direction with the zenith and azimuth angle of departure reported for the LoS path is the unit vector from the BS to the UT; reported angles are in [0,360).", "quantifier": "all BS and UT positions (distinct)", "why_tests_cant": "All octants and degenerate directions.", "anchors": ["OpenNTN/system_level_scenario.py: _compute_distance_2d_3d_and_angles", "OpenNTN/utils.py: wrap_angle_0_360"]}
{"id": "C24", "title": "LoS arrival angles point from UT to BS", "statement": "The direction with the zenith and azimuth angle of arrival reported for the LoS path is the unit vector from the UT to the BS.", "quantifier": "all BS and UT positions (distinct)", "why_tests_cant": "All octants; the error is a reflection that keeps every norm and every range check intact.", "anchors": ["OpenNTN/system_level_scenario.py: _compute_distance_2d_3d_and_angles", "OpenNTN/channel_coefficients.py: _step_11_los"]}
{"id": "C25", "title": "Indoor/outdoor distance split", "statement": "For every link, indoor and outdoor parts sum to the total (2D and 3D); the indoor parts are zero for outdoor UTs; the indoor 2D part is in [0,10) m; both 2D and 3D split in the same ratio.", "quantifier": "all positions with non-zero planar distance, all draws, all indoor patterns", "why_tests_cant": "Continuous draws and positions.", "anchors": ["OpenNTN/system_level_scenario.py: _sample_indoor_distance"]}
{"id": "C26", "title": "Large-scale parameters stay in their physical ranges", "statement": "For every draw, delay spread, shadow fading and K-factor are strictly positive, azimuth spreads are in [0,104] degrees and zenith spreads are in [0,52] degrees; in downlink the two departure spreads are exactly zero.", "quantifier": "every normal draw, every configuration", "why_tests_cant": "Normal draws are unbounded; extremes are never sampled.", "anchors": ["OpenNTN/lsp.py: LSPGenerator.__call__", "OpenNTN/dense_urban_scenario.py: _compute_lsp_log_mean_std", "OpenNTN/urban_scenario.py: _compute_lsp_log_mean_std", "OpenNTN/sub_urban_scenario.py: _compute_lsp_log_mean_std"]}
{"id": "C27", "title": "Large-scale parameters have the tabulated mean, deviation and correlation", "statement": "Below the caps, log10 of each large-scale parameter is an affine function of the i.i.d. normal draws whose constant is the table mean and whose coefficients have, pairwise, inner products equal to table deviation products times the table correlation (co-located links), i.e. the covariance matrix of the log parameters is exactly the tabulated one.", "quantifier": "every configuration, every pair of large-scale parameters", "why_tests_cant": "Statistical tests only approximate second moments; the algebraic identity is exact.", "anchors": ["OpenNTN/lsp.py: LSPGenerator.__call__", "OpenNTN/lsp.py: _compute_cross_lsp_correlation_matrix", "OpenNTN/lsp.py: _compute_lsp_spatial_correlation_sqrt", "OpenNTN/dense_urban_scenario.py: _compute_lsp_log_mean_std", "OpenNTN/urban_scenario.py: _compute_lsp_log_mean_std", "OpenNTN/sub_urban_scenario.py: _compute_lsp_log_mean_std"]}
{"id": "C28", "title": "Spatial correlation only couples UTs in the same state", "statement": "The spatial correlation matrix of each large-scale parameter is symmetric with unit diagonal; it is exp(-distance/D) with the D of that state for two UTs in the same state (LoS, NLoS, indoor) and zero for UTs in different states.", "quantifier": "every set of UT positions and states", "why_tests_cant": "Quantifies over all pairs and state patterns.", "anchors": ["OpenNTN/lsp.py: _compute_lsp_spatial_correlation_sqrt", "OpenNTN/system_level_scenario.py: spatial_correlation_matrix"]}
{"id": "C29", "title": "Spatial correlation matrix is positive semi-definite", "statement": "The spatial correlation matrix of each large-scale parameter is positive semi-definite for every placement and state pattern of UTs; it is singular as soon as two UTs in the same state share a planar position.", "quantifier": "every number, placement and state pattern of UTs", "why_tests_cant": "Positive semi-definiteness is a statement about all vectors and all placements.", "anchors": ["OpenNTN/lsp.py: _compute_lsp_spatial_correlation_sqrt"]}
{"id": "C30", "title": "Departure zenith spread mean is finite", "statement": "The log-mean of the zenith spread of departure handed to the sampler is a finite number of at least -100 (code comment: '-inf ... is replaced by a large negative number').", "quantifier": "every configuration", "why_tests_cant": "Needs downlink tables; the -inf is silently absorbed by pow.", "anchors": ["OpenNTN/dense_urban_scenario.py: _compute_lsp_log_mean_std", "OpenNTN/urban_scenario.py: _compute_lsp_log_mean_std", "OpenNTN/sub_urban_scenario.py: _compute_lsp_log_mean_std"]}
{"id": "C31", "title": "Exactly the tabulated number of clusters is active", "statement": "For a LoS (NLoS) outdoor link exactly the first n clusters are active, n being the LoS (NLoS) table value, and the number of generated clusters is the larger of both.", "quantifier": "every configuration, every history of calls with one BS and UTs at distinct planar positions, every state pattern", "why_tests_cant": "All state patterns over batch, BS and UT.", "anchors": ["OpenNTN/rays.py: _compute_clusters_mask", "OpenNTN/system_level_scenario.py: num_clusters_max"]}
{"id": "C32", "title": "Cluster delays are sorted, non-negative and start at zero", "statement": "For every outdoor link, cluster delays are in ascending order, the first is zero and none is negative, before and after K-factor scaling.", "quantifier": "every draw, delay spread, K-factor and state", "why_tests_cant": "The K-factor is log-normal, so its tail is never sampled.", "anchors": ["OpenNTN/rays.py: _cluster_delays"]}
{"id": "C33", "title": "Inactive clusters carry no power and stay last", "statement": "Inactive clusters have zero power and their delays are at least as large as those of all active clusters, so that the power mask hits exactly the inactive clusters after sorting.", "quantifier": "every draw with delay spread below a physical bound", "why_tests_cant": "Depends on draws extreme enough to exceed the placeholder delay.", "anchors": ["OpenNTN/rays.py: _cluster_delays", "OpenNTN/rays.py: _cluster_powers"]}
{"id": "C34", "title": "Cluster powers are a probability vector", "statement": "For every outdoor link cluster powers are non-negative and sum to one, both those used for the coefficients and those used for the angles; with LoS the latter give the first cluster K/(K+1) plus its share.", "quantifier": "every draw, state and parameter set", "why_tests_cant": "Normalisation must hold for every draw and mask.", "anchors": ["OpenNTN/rays.py: _cluster_powers"]}
{"id": "C35", "title": "Cluster powers are defined for indoor UTs", "statement": "For an indoor UT the cluster powers are well-defined numbers that sum to one.", "quantifier": "every configuration with an indoor UT", "why_tests_cant": "All indoor patterns.", "anchors": ["OpenNTN/rays.py: _compute_clusters_mask", "OpenNTN/rays.py: _cluster_powers"]}
{"id": "C36", "title": "In LoS the first cluster lies in the LoS direction", "statement": "For a LoS link the first cluster's angles of arrival and departure (azimuth and zenith), before adding intra-cluster ray offsets, are the LoS angles modulo 360 degrees.", "quantifier": "every draw, spread and LoS direction", "why_tests_cant": "Random signs and offsets must cancel for every draw.", "anchors": ["OpenNTN/rays.py: _azimuth_angles", "OpenNTN/rays.py: _zenith_angles"]}
{"id": "C37", "title": "Ray angles are normalised", "statement": "Every azimuth angle is in (-180,180], every zenith angle is in [0,180], and normalisation does not change the azimuth direction nor the cosine of the zenith angle.", "quantifier": "every real-valued unnormalised angle", "why_tests_cant": "Wrap-around at the ends of a continuum.", "anchors": ["OpenNTN/rays.py: _azimuth_angles", "OpenNTN/rays.py: _zenith_angles", "OpenNTN/utils.py: wrap_angle_0_360"]}
{"id": "C38", "title": "Random coupling is a permutation inside each cluster", "statement": "Within each cluster the coupled ray angles are exactly the generated ray angles in another order: none is lost, duplicated or moved to another cluster.", "quantifier": "every draw, number of clusters and rays", "why_tests_cant": "All permutations.", "anchors": ["OpenNTN/rays.py: _random_coupling", "OpenNTN/rays.py: _shuffle_angles"]}
{"id": "C39", "title": "Intra-cluster offsets are symmetric", "statement": "The twenty ray offsets come in opposite pairs, so that the mean direction of the rays of a cluster is the cluster direction.", "quantifier": "every cluster angle and spread", "why_tests_cant": "One wrong sign among twenty constants shifts a mean by a fraction of a degree.", "anchors": ["OpenNTN/rays.py: RaysGenerator.__init__", "OpenNTN/rays.py: _azimuth_angles"]}
{"id": "C40", "title": "Cross-polarisation ratios are positive", "statement": "Every cross-polarisation power ratio is a positive number whose dB value is the table mean plus table deviation times the draw.", "quantifier": "every draw and configuration", "why_tests_cant": "Unbounded draws.", "anchors": ["OpenNTN/rays.py: _cross_polarization_power_ratios"]}
{"id": "C41", "title": "High satellites have no departure azimuth spread", "statement": "If the satellite altitude is at least 160 km, all clusters depart with the LoS azimuth plus only the intra-cluster offsets.", "quantifier": "every draw and topology", "why_tests_cant": "Random draws must drop out for every value.", "anchors": ["OpenNTN/rays.py: _azimuth_angles"]}
{"id": "C42", "title": "Orientation changes are rigid rotations", "statement": "Rotating antenna positions with any orientation preserves all distances, angles and handedness, and the reverse rotation undoes it.", "quantifier": "every orientation (three real angles) and every vector", "why_tests_cant": "Continuous group identities.", "anchors": ["OpenNTN/channel_coefficients.py: _forward_rotation_matrix", "OpenNTN/channel_coefficients.py: _reverse_rotation_matrix", "OpenNTN/channel_coefficients.py: _rot_pos"]}
{"id": "C43", "title": "Local and global angles describe the same direction", "statement": "For every orientation and direction, the local zenith/azimuth angles describe the direction obtained by undoing the orientation, with local zenith in [0,pi].", "quantifier": "every orientation and direction", "why_tests_cant": "Includes gimbal-lock and pole cases that sampling misses.", "anchors": ["OpenNTN/channel_coefficients.py: _gcs_to_lcs"]}
{"id": "C44", "title": "Antenna field vector is invariant under the coordinate change", "statement": "The global field components obtained from the local ones describe the same physical field vector: projecting on the global zenith/azimuth unit vectors gives back the rotated local field, and the power is preserved.", "quantifier": "every orientation, direction (away from the local poles) and local field", "why_tests_cant": "A sign error in the polarisation angle preserves power and is invisible to power-based tests.", "anchors": ["OpenNTN/channel_coefficients.py: _compute_psi", "OpenNTN/channel_coefficients.py: _l2g_response", "OpenNTN/channel_coefficients.py: _field"]}
{"id": "C45", "title": "Phase terms do not change power", "statement": "Doppler terms, antenna array offset terms, the LoS propagation phase and Faraday rotation all preserve power (unit modulus or unitary), and the Doppler terms equal one at time zero.", "quantifier": "every topology, velocity, time, wavelength, frequency", "why_tests_cant": "Continuum of inputs.", "anchors": ["OpenNTN/channel_coefficients.py: _step_11_doppler_matrix", "OpenNTN/channel_coefficients.py: _step_11_array_offsets", "OpenNTN/channel_coefficients.py: _step_11_los", "OpenNTN/channel_coefficients.py: _step_11_faraday_rotation"]}
{"id": "C46", "title": "Each ray contributes to exactly one path", "statement": "Splitting the two strongest clusters into three sub-clusters uses every one of the 20 rays exactly once, so the sum of all path coefficients equals the sum of all ray coefficients.", "quantifier": "all ray coefficients and powers, any number of clusters >= 2", "why_tests_cant": "A duplicated index keeps all shapes intact.", "anchors": ["OpenNTN/channel_coefficients.py: ChannelCoefficientsGenerator.__init__", "OpenNTN/channel_coefficients.py: _step_11_reduce_nlos"]}
{"id": "C47", "title": "Path delays are sorted and paired with their coefficients", "statement": "The returned path delays are ascending, the first path has zero delay if the first cluster has, there are exactly four more paths than clusters, and each returned coefficient is paired with the delay of the cluster or sub-cluster it belongs to (sub-cluster offsets 0, 1.28 and 2.56 times the cluster delay spread).", "quantifier": "all cluster powers, delays, coefficients", "why_tests_cant": "Pairing errors after reshape/argsort do not change shapes or delays.", "anchors": ["OpenNTN/channel_coefficients.py: _step_11_reduce_nlos"]}
{"id": "C48", "title": "K-factor splits power between LoS and scattered paths", "statement": "For LoS links, the squared LoS weight and squared scatter weight sum to one and have ratio K; for NLoS links the LoS term does not contribute; the LoS term only enters the first path.", "quantifier": "every K-factor > 0 and every state pattern", "why_tests_cant": "Continuum and all patterns.", "anchors": ["OpenNTN/channel_coefficients.py: _step_11"]}
{"id": "C49", "title": "Satellite Doppler is bounded by orbital speed", "statement": "The additional satellite phase rotation rate never exceeds 2*pi/lambda times cos(elevation) times the circular orbital speed at the BS altitude, is zero if Doppler is disabled or the altitude is below 600 km.", "quantifier": "every topology, random draw, time", "why_tests_cant": "Random draws and continuum.", "anchors": ["OpenNTN/channel_coefficients.py: Topology.__init__", "OpenNTN/channel_coefficients.py: _step_11_doppler_matrix", "OpenNTN/utils.py: compute_satellite_speed"]}
{"id": "C50", "title": "Uplink and downlink LoS channels are reciprocal", "statement": "With the same topology, the LoS coefficient from UT antenna u to BS antenna b in uplink equals the LoS coefficient from BS antenna b to UT antenna u in downlink, including Faraday rotation, array offsets and UT motion.", "quantifier": "all field patterns, orientations, positions, velocities, times", "why_tests_cant": "Relational property between two configurations.", "anchors": ["OpenNTN/channel_coefficients.py: _step_11_los", "OpenNTN/system_level_channel.py: __call__"]}
{"id": "C51", "title": "Output axes are receiver first, transmitter second in both directions", "statement": "In downlink receivers are UTs and transmitters BSs, in uplink the reverse; output element [batch, rx, rx_ant, tx, tx_ant, path, time] is the coefficient of that link, with its own path delays, for both directions.", "quantifier": "all shapes and indices", "why_tests_cant": "Axis permutations on equal-sized axes are invisible to shape tests.", "anchors": ["OpenNTN/system_level_channel.py: __call__"]}
{"id": "C52", "title": "Step-12 gain is path loss plus shadow fading", "statement": "With path loss and shadow fading enabled, the power gain applied to a link in dB is minus the total path loss plus the shadow fading in dB; a disabled component contributes 0 dB; the gain is positive.", "quantifier": "all path losses and shadow fading values", "why_tests_cant": "Continuum of values and all flag combinations.", "anchors": ["OpenNTN/system_level_channel.py: _step_12", "OpenNTN/lsp.py: sample_pathloss"]}
{"id": "C53", "title": "Disabling shadow fading removes shadow fading", "statement": "With enable_shadow_fading=False the gain of a link does not depend on any shadow-fading draw.", "quantifier": "every random draw", "why_tests_cant": "Non-interference over all random draws.", "anchors": ["OpenNTN/system_level_channel.py: _step_12", "OpenNTN/utils.py: compute_pathloss_basic"]}
{"id": "C54", "title": "Shadow fading is applied once", "statement": "With shadow fading enabled, the deviation of the link gain in dB due to shadow fading is a single draw with the table deviation.", "quantifier": "every random draw", "why_tests_cant": "Distributional equality over all draws.", "anchors": ["OpenNTN/system_level_channel.py: _step_12", "OpenNTN/utils.py: compute_pathloss_basic", "OpenNTN/lsp.py: LSPGenerator.__call__"]}
{"id": "C55", "title": "Path loss grows with distance and frequency", "statement": "For the same draw and state, basic path loss strictly increases with distance and, within a band or without shadow fading, with frequency; doubling the distance adds 20 log10(2) dB; an NLoS link has the LoS formula plus the positive clutter loss.", "quantifier": "all distances, frequencies, draws", "why_tests_cant": "Continuum.", "anchors": ["OpenNTN/utils.py: compute_pathloss_basic"]}
{"id": "C56", "title": "Total path loss is the sum of its parts and extra losses are never gains", "statement": "Total path loss = basic + gas + scintillation + building entry, and gas, scintillation and entry losses are non-negative for every atmosphere and frequency.", "quantifier": "all atmospheric parameters and frequencies", "why_tests_cant": "Continuum in several variables.", "anchors": ["OpenNTN/lsp.py: sample_pathloss", "OpenNTN/utils.py: compute_pathloss_gas", "OpenNTN/utils.py: compute_pathloss_scintilation", "OpenNTN/utils.py: compute_pathloss_entry"]}
{"id": "C57", "title": "Scintillation uses the ITU effective path length", "statement": "The effective turbulent path length is 2 h_L / (sqrt(sin^2(el) + 2.35e-4) + sin(el)) as in ITU-R P.618.", "quantifier": "every elevation in [10,90]", "why_tests_cant": "Formula equality over a continuum.", "anchors": ["OpenNTN/utils.py: compute_pathloss_scintilation"]}
{"id": "C58", "title": "Antenna elements of a panel array are centred and evenly spaced", "statement": "The positions of an array sum to zero, neighbours in a row (column) of a panel are one element spacing apart in wavelengths, all lie in the plane x=0.", "quantifier": "every number of rows, columns, panels, every spacing and wavelength", "why_tests_cant": "All sizes.", "anchors": ["OpenNTN/antenna.py: AntennaPanel.__init__", "OpenNTN/antenna.py: PanelArray.__init__"]}
{"id": "C59", "title": "Antenna elements of one polarisation never coincide", "statement": "With positive element spacing and accepted panel spacing, two different elements of the same polarisation never have the same position; with dual polarisation each position carries exactly one element of each polarisation.", "quantifier": "every array size and spacing", "why_tests_cant": "Injectivity over all sizes.", "anchors": ["OpenNTN/antenna.py: PanelArray.__init__"]}
{"id": "C60", "title": "Polarisation index sets partition the antennas", "statement": "The index sets of first and second polarisation are disjoint and together are exactly 0..num_ant-1, each of half size for dual polarisation; num_ant is panels x elements x polarisations.", "quantifier": "every array size", "why_tests_cant": "All sizes.", "anchors": ["OpenNTN/antenna.py: PanelArray.__init__", "OpenNTN/antenna.py: ant_ind_pol1", "OpenNTN/antenna.py: ant_ind_pol2"]}
{"id": "C61", "title": "Antenna patterns are bounded and slant keeps power", "statement": "The 38.901 pattern lies between -22 dBi and 8 dBi with its maximum at boresight, the directional low-profile pattern is between -25 dB and 0 dB, the omni pattern is one, and for any slant angle the two field components' squared magnitudes sum to the pattern.", "quantifier": "every direction and slant angle", "why_tests_cant": "Continuum.", "anchors": ["OpenNTN/antenna.py: AntennaElement"]}
{"id": "C62", "title": "Dual polarisation produces the requested slants", "statement": "polarization_type 'VH' yields a 0 degree and a 90 degree element, 'cross' yields -45 and +45 degrees.", "quantifier": "every accepted array configuration", "why_tests_cant": "Only one branch is wrong.", "anchors": ["OpenNTN/antenna.py: PanelArray.__init__"]}
{"id": "C63", "title": "Subcarrier frequencies", "statement": "Subcarrier n of N has frequency (n - floor(N/2)) times the spacing: exactly N strictly increasing, uniformly spaced values with zero at index floor(N/2).", "quantifier": "every N >= 1 and spacing > 0", "why_tests_cant": "All sizes and both parities.", "anchors": ["OpenNTN/utils.py: subcarrier_frequencies"]}
{"id": "C64", "title": "Frequency response is the Fourier sum of the impulse response", "statement": "The OFDM channel is sum over paths of coefficient times exp(-j 2 pi f tau); it is linear in the coefficients, a common delay only rotates phases, and with normalisation the average energy per link and time is one unless the channel is zero, which stays zero.", "quantifier": "all impulse responses and frequency grids", "why_tests_cant": "Continuum.", "anchors": ["OpenNTN/utils.py: cir_to_ofdm_channel"]}
{"id": "C65", "title": "Time-domain taps are sinc-interpolated", "statement": "The discrete-time tap l is sum over paths of coefficient times sinc(l - W tau); a path with delay an exact multiple k/W contributes only to tap k; normalisation yields unit total energy.", "quantifier": "all impulse responses, bandwidths and tap ranges", "why_tests_cant": "Continuum.", "anchors": ["OpenNTN/utils.py: cir_to_time_channel"]}
{"id": "C66", "title": "Time-domain to OFDM conversion is the shifted DFT of the taps", "statement": "For every tap range with at most fft_size taps, subcarrier n of symbol s equals the DFT sum of taps l_min..l_max taken at the first sample after the cyclic prefix of symbol s, with DC in the middle; more taps than fft_size is an error.", "quantifier": "all fft sizes, cyclic prefixes, tap ranges, channels", "why_tests_cant": "All sizes and parities; off-by-one in roll/shift is invisible when l_min=0.", "anchors": ["OpenNTN/utils.py: time_to_ofdm_channel"]}
{"id": "C67", "title": "Tap range covers the delay spread", "statement": "The default tap range is [-6, ceil(W*tau_max)+6] and covers every delay in [0,tau_max] with a margin of six samples on both sides.", "quantifier": "all bandwidths and delays", "why_tests_cant": "Continuum.", "anchors": ["OpenNTN/utils.py: time_lag_discrete_time_channel"]}
{"id": "C68", "title": "Dropped UTs see the satellite at the requested elevation", "statement": "The centre point around which a UT is dropped is at planar distance h/tan(elevation) from the satellite's ground point; each UT is within half an inter-site distance of it in x and y.", "quantifier": "every draw, altitude, elevation, inter-site distance", "why_tests_cant": "Random draws and continuum.", "anchors": ["OpenNTN/utils.py: drop_uts_in_sector"]}
{"id": "C69", "title": "UT antennas point at the satellite", "statement": "The boresight of every generated UT points to the satellite: elevation equal to the configured one, azimuth towards the BS.", "quantifier": "every generated UT position", "why_tests_cant": "Only a thin strip of positions is wrong.", "anchors": ["OpenNTN/utils.py: generate_uts_topology", "OpenNTN/utils.py: gen_single_sector_topology"]}
{"id": "C70", "title": "Generated topologies are accepted", "statement": "Everything returned by gen_single_sector_topology is accepted by set_topology as a first call: all six required arguments are present; UT heights, speeds are in the requested ranges, motion is horizontal.", "quantifier": "every parameter combination with ordered ranges and elevation in (0,90], every draw in which no UT is exactly below the satellite (where its bearing is undefined)", "why_tests_cant": "Random draws.", "anchors": ["OpenNTN/utils.py: gen_single_sector_topology", "OpenNTN/utils.py: generate_uts_topology", "OpenNTN/system_level_channel.py: set_topology"]}
{"id": "C71", "title": "Requested indoor probability is honoured", "statement": "With indoor_probability p each UT is indoor exactly when its draw is below p.", "quantifier": "every p and draw", "why_tests_cant": "Statistical in a test; exact here.", "anchors": ["OpenNTN/utils.py: generate_uts_topology"]}
{"id": "C72", "title": "Multi-sector interferer topology can be generated", "statement": "gen_single_sector_topology_interferers returns a topology for every documented parameter combination.", "quantifier": "every parameter combination", "why_tests_cant": "Negative claim for all inputs: it always raises.", "anchors": ["OpenNTN/utils.py: gen_single_sector_topology_interferers"]}
{"id": "C73", "title": "Scenario defaults", "statement": "set_3gpp_scenario_parameters returns each explicitly given value unchanged, otherwise the documented scenario default, in the documented order, and rejects unknown scenario names.", "quantifier": "every subset of given parameters and every scenario name", "why_tests_cant": "2^8 subsets times all names.", "anchors": ["OpenNTN/utils.py: set_3gpp_scenario_parameters"]}
{"id": "C74", "title": "Relocating UTs is a rigid motion", "statement": "Relocating UTs into a sector of a cell preserves all mutual distances in the plane (heights are not passed to the function); three sector rotations return to the start.", "quantifier": "all positions, sectors and cell centres", "why_tests_cant": "Continuum.", "anchors": ["OpenNTN/utils.py: relocate_uts"]}
{"id": "C75", "title": "Orbital speed follows Kepler's law", "statement": "Satellite speed v satisfies v^2 (R+h) = G M, is positive and strictly decreases with altitude.", "quantifier": "every altitude >= 0", "why_tests_cant": "Continuum.", "anchors": ["OpenNTN/utils.py: compute_satellite_speed"]}
{"id": "C76", "title": "Exponential correlation matrix is a correlation matrix", "statement": "For |a| < 1 the exponential correlation matrix has unit diagonal, is Hermitian with entries a^(i-j) below the diagonal, and is positive definite; |a| >= 1 is rejected.", "quantifier": "every complex a and every size", "why_tests_cant": "Positive definiteness over all vectors and sizes.", "anchors": ["OpenNTN/utils.py: exp_corr_mat"]}
{"id": "C77", "title": "One-ring correlation matrix is a correlation matrix", "statement": "The one-ring correlation matrix is Hermitian with unit diagonal and entries of modulus at most one, and is positive semi-definite.", "quantifier": "every size, angle, spread and spacing", "why_tests_cant": "Positive semi-definiteness over all vectors.", "anchors": ["OpenNTN/utils.py: one_ring_corr_mat"]}
{"id": "C78", "title": "TDL powers are normalised", "statement": "For every TDL model the reported mean powers are non-negative and sum to one, and the K-factor equals LoS power over scattered power of the first tap.", "quantifier": "every TDL table", "why_tests_cant": "Table data and scaling.", "anchors": ["OpenNTN/tdl.py: TDL._load_parameters", "OpenNTN/tdl.py: mean_powers", "OpenNTN/models/TDL-*.json"]}
{"id": "C79", "title": "Every accepted TDL model name can be constructed", "statement": "Each model name that passes the constructor's check leads to a usable object.", "quantifier": "every model name", "why_tests_cant": "Branch coverage over strings.", "anchors": ["OpenNTN/tdl.py: TDL.__init__"]}
{"id": "C80", "title": "CDL channel can be generated", "statement": "Calling a constructed CDL model returns a channel impulse response.", "quantifier": "every accepted CDL configuration", "why_tests_cant": "Negative claim for all inputs: the call always raises.", "anchors": ["OpenNTN/cdl.py: CDL.__call__", "OpenNTN/channel_coefficients.py: Topology.__init__"]}
{"id": "C81", "title": "Installation patch is idempotent and additive", "statement": "Running the post-install step adds the tr38811 import directly after the tr38901 import if the former is absent, keeps all other lines in order, and running it again changes nothing; if the tr38901 import is missing the file is untouched.", "quantifier": "every content of the framework's init file, any number of runs", "why_tests_cant": "All file contents.", "anchors": ["post_install.py: modify_vanilla_sionna"]}
{"id": "C82", "title": "A generated channel is finite and causal", "statement": "After a successful set_topology call with one BS and UTs at different planar positions, whatever happened before and since, a generation call returns in the configured direction; on the link of every outdoor UT, given a K-factor of at least -9 dB if it has line of sight, every coefficient is a finite number and the path delays are finite, sorted and start at zero.", "quantifier": "every scenario, log of calls, draw, antenna pair, path and time sample", "why_tests_cant": "End-to-end absence of NaN over all states and draws.", "anchors": ["OpenNTN/system_level_channel.py: __call__", "OpenNTN/rays.py: RaysGenerator.__call__", "OpenNTN/channel_coefficients.py: ChannelCoefficientsGenerator.__call__"]}
{"id": "C83", "title": "Time and frequency vectors", "statement": "The time instants are (k - floor(n/2)) sample durations and the frequencies (k - floor(n/2)) / (n * duration), for even and odd n.", "quantifier": "every number of samples and duration", "why_tests_cant": "All sizes and both parities.", "anchors": ["OpenNTN/utils.py: time_frequency_vector"]}
{"id": "C84", "title": "Direct and tap-based frequency responses agree on the sample grid", "statement": "If all path delays are whole numbers of samples inside the tap range and the tap range is not longer than the FFT, cir_to_time_channel followed by time_to_ofdm_channel equals cir_to_ofdm_channel at the subcarrier frequencies, at the first sample after the cyclic prefix of every symbol.", "quantifier": "all grids, impulse responses, tap ranges", "why_tests_cant": "Relation between three functions over all sizes.", "anchors": ["OpenNTN/utils.py: cir_to_ofdm_channel", "OpenNTN/utils.py: cir_to_time_channel", "OpenNTN/utils.py: time_to_ofdm_channel"]}
{"id": "C85", "title": "The generated satellite antenna looks straight down", "statement": "The orientation returned for the BS turns the local x axis, the boresight, into the direction (0, 0, -1).", "quantifier": "every scenario, parameter combination and draw", "why_tests_cant": "Tests compare the orientation triple with itself; whether the triple means downward depends on the rotation convention in another file.", "anchors": ["OpenNTN/utils.py: gen_single_sector_topology", "OpenNTN/channel_coefficients.py: ChannelCoefficientsGenerator._forward_rotation_matrix"]}
{"id": "C86", "title": "TDL spatial correlation is the one requested", "statement": "With a joint spatial correlation matrix the taps have that covariance; otherwise they have the Kronecker product of the receive and transmit correlation matrices, the identity standing for one that is not given.", "quantifier": "every Hermitian positive definite correlation matrix, antenna numbers, combination of given matrices", "why_tests_cant": "Covariance of a linear map for all matrices; sampling shows it only approximately.", "anchors": ["OpenNTN/tdl.py: TDL.__call__"]}
{"id": "C87", "title": "Average TDL tap power equals the reported mean power", "statement": "Averaged over independent uniform phases of the sinusoids, the power of every tap is the reported mean power of that tap, at all times, with and without line of sight, for any number of sinusoids.", "quantifier": "every constructed model, antenna pair, tap, time sample, and values of all other draws", "why_tests_cant": "A statement on an integral over all phases.", "anchors": ["OpenNTN/tdl.py: TDL.__call__", "OpenNTN/tdl.py: mean_powers"]}
{"id": "C88", "title": "TDL Doppler bounds include the satellite motion", "statement": "The maximum Doppler shift in radian per second is 2 pi f/c times the sum of the speed of the terminal and the speed of the satellite seen under the elevation angle.", "quantifier": "all heights, elevations, carrier frequencies and speeds", "why_tests_cant": "Unit error hidden in a formula.", "anchors": ["OpenNTN/tdl.py: TDL.__init__", "OpenNTN/tdl.py: _compute_doppler"]}
{"id": "C89", "title": "TDL delays", "statement": "The reported delays are non-negative, ascend from zero, are as many as powers and clusters, scale with the delay spread, and are independent of it for exactly the models A30, B100, C300.", "quantifier": "every constructed model and delay spread", "why_tests_cant": "All tables and spreads.", "anchors": ["OpenNTN/tdl.py: delays", "OpenNTN/tdl.py: delay_spread", "OpenNTN/models/TDL-*.json"]}
{"id": "C90", "title": "CDL powers are normalised", "statement": "For every CDL model the reported powers are positive, sum to one and are proportional to the file, the powers of the scattered paths sum to one, the K-factor is specular over scattered power of the first path, all arrays have one row per cluster and delays ascend from zero.", "quantifier": "every accepted CDL configuration", "why_tests_cant": "Table data and two-fold scaling.", "anchors": ["OpenNTN/cdl.py: CDL._load_parameters", "OpenNTN/cdl.py: powers", "OpenNTN/cdl.py: k_factor", "OpenNTN/models/CDL-*.json"]}
{"id": "C91", "title": "CDL rays surround the cluster angle", "statement": "The twenty rays of a cluster lie symmetrically around the angle of the file with the cluster spread of the file as root mean square deviation; the uplink exchanges departure and arrival, including the LoS angles.", "quantifier": "every accepted CDL configuration, every cluster", "why_tests_cant": "All clusters, both directions.", "anchors": ["OpenNTN/cdl.py: CDL._generate_rays", "OpenNTN/cdl.py: CDL._load_parameters"]}
{"id": "C92", "title": "Azimuth of clusters follows a Gaussian profile", "statement": "The power of a cluster relative to the strongest one is a Gaussian function of its deviation in azimuth, whose width is the angular spread of the link scaled by the tabulated constant and, in LoS, by the cubic polynomial of the K-factor; signs are random, a normal term of a seventh of the spread is added, and clusters are centred on the LoS azimuth (in LoS: on the first cluster). Rays surround the cluster with the tabulated cluster spread.", "quantifier": "every link for which rays are generated, all draws", "why_tests_cant": "Inverse of a transcendental function of all powers; tests only look at spreads.", "anchors": ["OpenNTN/rays.py: RaysGenerator._azimuth_angles"]}
{"id": "C93", "title": "Zenith of clusters follows a Laplacian profile", "statement": "The power of a cluster relative to the strongest one is a decaying exponential of its deviation in zenith, scaled by the spread of the link, the tabulated constant and, in LoS, the cubic polynomial of the K-factor; signs, normal term and centring as in azimuth, with the offset of the zenith of departure in NLoS. Waves to an indoor UT arrive around the horizon. Departing rays surround the cluster with 3/8 of the median spread.", "quantifier": "every link for which rays are generated, all draws", "why_tests_cant": "Inverse of a transcendental function of all powers.", "anchors": ["OpenNTN/rays.py: RaysGenerator._zenith_angles"]}
{"id": "C94", "title": "Cluster sides and ray couplings are drawn for each UT", "statement": "For two UTs of a BS, the signs of the cluster deviations and the couplings of rays can differ even if all normal and uniform draws agree.", "quantifier": "all links, all draws", "why_tests_cant": "Shape of a random tensor; a marginal test of each UT cannot see that draws are shared.", "anchors": ["OpenNTN/rays.py: RaysGenerator._azimuth_angles", "OpenNTN/rays.py: RaysGenerator._zenith_angles", "OpenNTN/rays.py: RaysGenerator._shuffle_angles"]}
{"id": "C95", "title": "Zenith of departure offset is in the unit of the angles", "statement": "In NLoS the clusters depart around the LoS zenith plus arctan((35-3.5)/d) - arctan((35-1.5)/d), everything in degree.", "quantifier": "all distances and LoS zenith angles", "why_tests_cant": "For satellite distances the error is far below any tolerance.", "anchors": ["OpenNTN/dense_urban_scenario.py: _compute_lsp_log_mean_std", "OpenNTN/rays.py: RaysGenerator._zenith_angles"]}
{"id": "C96", "title": "Gas loss is that of ITU-R P.676", "statement": "The gas loss is the attenuation of ITU-R P.676-9 Annex 2: specific attenuations of dry air and water vapour times their equivalent heights, over the sine of the elevation.", "quantifier": "every valid scenario and physical atmosphere", "why_tests_cant": "Dozens of constants; a test with tolerance at one frequency cannot see most of them.", "anchors": ["OpenNTN/utils.py: compute_pathloss_gas"]}
{"id": "C97", "title": "Scintillation loss is that of ITU-R P.618 and TR 38.811", "statement": "In Ka band the scintillation loss is the fade depth of ITU-R P.618 exceeded for 0.01 % of the time; in S band it is 1.1 dB at 4 GHz, scaled with the frequency to the power -1.5 and divided by the square root of two.", "quantifier": "every valid scenario and physical atmosphere", "why_tests_cant": "Many constants and a branch that depends on a transcendental function.", "anchors": ["OpenNTN/utils.py: compute_pathloss_scintilation"]}
{"id": "C98", "title": "Antenna patterns have their tabulated shape", "statement": "The 38.901 and co-phased patterns fall to half power at half their beamwidth of 65 and 90 degrees in both planes and to their floor of 30 and 25 dB at the back, are symmetric and decrease away from boresight, and attenuations of the planes in dB add up to the floor. The aperture pattern is (2J(x)/x)^2, x = 2 pi 10 sin r, with r the angle to boresight and J the solution of Bessel's equation of order one.", "quantifier": "all directions", "why_tests_cant": "A continuum of directions, and a special function.", "anchors": ["OpenNTN/antenna.py: AntennaElement"]}
{"id": "C99", "title": "Reported gain and directivity of an element", "statement": "The reported gain is the boresight gain of the pattern in dB for every slant; an isotropic element is reported with gain and directivity of 0 dB.", "quantifier": "all patterns and slant angles", "why_tests_cant": "The numbers are only displayed; the error is 0.012 dB.", "anchors": ["OpenNTN/antenna.py: AntennaElement._compute_gain"]}
{"id": "C100", "title": "Average power of the paths", "statement": "Averaged over the random ray phases, the power of a path is the sum over its rays of a twentieth of the cluster power times the gain of the ray, with co-polarised components in full and cross-polarised components divided by the cross polarisation ratio; LoS links split it by the K-factor. It depends on neither time nor antenna position, and all paths together have at most the product of the maximum element gains.", "quantifier": "all arrays, orientations, rays with non-negative powers and positive cross polarisation ratios, all K-factors, times and antenna pairs", "why_tests_cant": "An integral over hundreds of independent phases; a Monte Carlo estimate has an error and covers one geometry.", "anchors": ["OpenNTN/channel_coefficients.py: ChannelCoefficientsGenerator._step_11_nlos", "OpenNTN/channel_coefficients.py: ChannelCoefficientsGenerator._step_11_phase_matrix", "OpenNTN/channel_coefficients.py: ChannelCoefficientsGenerator._step_11"]}
{"id": "C101", "title": "Satellite Doppler is possible on a circular orbit", "statement": "The Doppler shift added for a satellite belongs to a range rate that a satellite on a circular orbit of that altitude, seen at the configured elevation, can have.", "quantifier": "all altitudes from 600 km, all elevations, all draws of the orbit direction", "why_tests_cant": "A geometric fact about all orbits; the excess of nine percent at 600 km looks plausible.", "anchors": ["OpenNTN/channel_coefficients.py: Topology.__init__", "OpenNTN/channel_coefficients.py: ChannelCoefficientsGenerator._step_11_doppler_matrix"]}
{"id": "C102", "title": "Penetration loss of indoor UTs follows TR 38.901", "statement": "The penetration loss of an indoor UT is the wall loss of TR 38.901 7.4.3.1 plus half a dB per metre plus a normal term of 4.4 (low-loss) or 6.5 dB (high-loss); outdoor UTs have none. Wall losses exceed 5 dB, grow with frequency and are larger in the high-loss model.", "quantifier": "all frequencies, distances and draws", "why_tests_cant": "The functions are not called by the simulation, so no test reaches them.", "anchors": ["OpenNTN/lsp.py: LSPGenerator._o2i_low_loss", "OpenNTN/lsp.py: LSPGenerator._o2i_high_loss"]}
{"id": "C103", "title": "Doppler helper returns the largest satellite Doppler shift", "statement": "compute_stallite_doppler returns the largest Doppler shift in Hz a satellite at the given altitude can cause at the given elevation and carrier frequency.", "quantifier": "all altitudes from 600 km, elevations and frequencies", "why_tests_cant": "Largest over all orbits; the function is not called.", "anchors": ["OpenNTN/utils.py: compute_stallite_doppler"]}
{"id": "C104", "title": "Large-scale distributions are those of the standard", "statement": "For every accepted configuration, the log-domain means and deviations of DS, ASD, ASA, K, ZSA and ZSD handed to the sampler equal the TR 38.811 values transcribed in the test suite for the area, LoS state, band, direction and nearest elevation row; exactly, except for nine cells in which the two transcriptions differ by at most the test tolerance 0.1.", "quantifier": "all accepted configurations and LoS states", "why_tests_cant": "The tests compare averages at nine elevations with a tolerance of 0.1 and so accept wrong cells.", "anchors": ["OpenNTN/models: *Urban*.json", "OpenNTN/dense_urban_scenario.py: _compute_lsp_log_mean_std", "test/step_4_1_test.py"]}
{"id": "C105", "title": "Cross-correlations are those of the standard", "statement": "The cross-correlation matrix of a link has unit diagonal and, for each of the 21 pairs of large-scale parameters, the TR 38.811 coefficient transcribed in the test suite at both places.", "quantifier": "all accepted configurations and LoS states", "why_tests_cant": "The tests cover one elevation per row only.", "anchors": ["OpenNTN/lsp.py: _compute_cross_lsp_correlation_matrix", "OpenNTN/models: *Urban*.json", "test/step_4_2_test.py"]}
{"id": "C106", "title": "Correlation distances are those of the standard", "statement": "The spatial correlation of a large-scale parameter of two UTs in the same state is exp(-d/D) with the correlation distance D of the standard for that parameter and state, and zero across states.", "quantifier": "all accepted configurations, numbers of UTs, positions and states", "why_tests_cant": "All UT counts, positions and state combinations.", "anchors": ["OpenNTN/lsp.py: _compute_lsp_spatial_correlation_sqrt", "OpenNTN/models: *Urban*.json", "test/step_4_3_test.py"]}
{"id": "C107", "title": "LoS probability is that of the standard", "statement": "The LoS probability equals TR 38.811 Table 6.6.1-1 at the row nearest to the elevation, in every band and direction.", "quantifier": "all accepted configurations", "why_tests_cant": "Tests estimate the probability by sampling with a tolerance of 2 percent, in one band.", "anchors": ["OpenNTN/dense_urban_scenario.py: los_probability", "OpenNTN/models: *Urban*.json", "test/step_2_test.py"]}
{"id": "C108", "title": "Clutter loss and shadow fading are those of the standard", "statement": "The basic path loss is the free space path loss plus a normal variable with the shadow fading deviation of TR 38.811 Tables 6.6.2-1 to 6.6.2-3, plus, in NLoS, the clutter loss of these tables; the same deviation is used for the shadow fading of the large-scale parameters.", "quantifier": "all accepted configurations, distances and draws", "why_tests_cant": "Tests cover one area and check with a tolerance of 0.5 dB, printing instead of failing.", "anchors": ["OpenNTN/utils.py: compute_pathloss_basic", "OpenNTN/models: *Urban*.json", "test/step_3_test.py"]}
{"id": "C109", "title": "Delay scaling is that of the standard", "statement": "The delay scaling parameter r_tau of a link equals the TR 38.811 value for its area, LoS state, band and nearest elevation row.", "quantifier": "all accepted configurations and LoS states", "why_tests_cant": "Tests compare averages of random delays.", "anchors": ["OpenNTN/rays.py: _cluster_delays", "OpenNTN/models: *Urban*.json", "test/step_5_test.py"]}
{"id": "C110", "title": "Uplink and downlink differ only at the satellite end", "statement": "For the same area, carrier and elevation, uplink and downlink use the same value of every parameter except the departure spreads and their correlations, the same cluster counts, LoS probability and basic path loss.", "quantifier": "all pairs of accepted configurations that differ only in direction", "why_tests_cant": "A comparison of all parameters over all configurations; no test compares the two directions.", "anchors": ["OpenNTN/system_level_scenario.py: get_param", "OpenNTN/models: *Urban*.json"]}
{"id": "C111", "title": "Panel arrays exist exactly for documented arguments", "statement": "Building a PanelArray succeeds if and only if polarization, polarization type and element pattern are a documented combination, there is at least one panel, and panel spacings that are given exceed the panel size; the array then has one antenna for every element and polarization.", "quantifier": "every combination of arguments, with or without spacings", "why_tests_cant": "Arguments are strings, counts and reals; tests build a handful of arrays.", "anchors": ["OpenNTN/antenna.py: PanelArray.__init__"]}
{"id": "C112", "title": "Default spacings are half a wavelength", "statement": "Without element spacings neighbouring elements of a panel are half a wavelength apart, and without panel spacings the facing elements of neighbouring panels are half a wavelength apart whatever the element spacing. Antenna puts its elements at the origin and AntennaArray is one centred panel.", "quantifier": "every array, every pair of neighbouring elements", "why_tests_cant": "A wrong default only changes coordinates; tests look at shapes.", "anchors": ["OpenNTN/antenna.py: PanelArray.__init__", "OpenNTN/antenna.py: Antenna.__init__", "OpenNTN/antenna.py: AntennaArray.__init__"]}
{"id": "C113", "title": "TDL taps have the autocorrelation of Clarke's model", "statement": "Averaged over random phases and angles of arrival, the autocorrelation of a tap is its mean power times the Bessel function J0 of Doppler frequency times lag, for every number of sinusoids; the first tap of a LoS model has a specular part carrying K/(K+1) of the power that turns with the Doppler frequency of the LoS angle.", "quantifier": "every model, delay spread, tap, number of sinusoids, speed, sampling rate and pair of time steps", "why_tests_cant": "An expectation over continuous random variables; simulation only estimates it.", "anchors": ["OpenNTN/tdl.py: TDL.__call__"]}
{"id": "C114", "title": "TDL taps and antenna pairs fade independently", "statement": "Averaged over the random phases, coefficients of different taps, and of different antenna pairs of one tap, are uncorrelated at any two times, apart from the specular part that all antenna pairs share.", "quantifier": "every model, all pairs of taps or antenna pairs, all times", "why_tests_cant": "An expectation over continuous random variables; a shared random draw is easily missed by sampling.", "anchors": ["OpenNTN/tdl.py: TDL.__call__"]}
{"id": "C115", "title": "Orientation is bearing, then downtilt, then slant", "statement": "The orientation of an antenna is the product of the rotation by the bearing about z, the downtilt about y and the slant about x, in this order; it keeps lengths and sends the boresight to the direction with azimuth equal to the bearing and elevation minus the downtilt.", "quantifier": "all triples of orientation angles", "why_tests_cant": "The order of three rotations matters only for orientations with several non-zero angles; tests use zero angles.", "anchors": ["OpenNTN/channel_coefficients.py: _forward_rotation_matrix, _reverse_rotation_matrix"]}
{"id": "C116", "title": "A ray coefficient is that of TR 38.901 with Faraday rotation", "statement": "The coefficient of a ray of a NLoS cluster is the receive field times the matrix of random phases and XPR, turned by the Faraday rotation, times the transmit field, times the phases of the receive and transmit antenna positions and of the Doppler shift over time, as in TR 38.901 equation 7.5-22.", "quantifier": "all rays off the vertical axis of the antenna (where azimuth is undefined), antennas, orientations, polarisations, phases, velocities and times", "why_tests_cant": "An identity over many real arguments; tests compare with a reimplementation for a few drops.", "anchors": ["OpenNTN/channel_coefficients.py: _step_11_nlos"]}
{"id": "C117", "title": "The LoS coefficient is that of TR 38.901", "statement": "The LoS coefficient is the one of TR 38.901 equation 7.5-29 with Faraday rotation, including the phase -2 pi d / lambda of the path length.", "quantifier": "all LoS links off the vertical axis of the antennas, antennas, orientations, distances, velocities and times", "why_tests_cant": "The sign of a common phase does not change powers, which is what tests look at.", "anchors": ["OpenNTN/channel_coefficients.py: _step_11_los"]}
{"id": "C118", "title": "Path loss reproduces the TR 38.821 link budgets", "statement": "In the S band and Ka band cases of the TR 38.821 link budgets (GEO at 12.5 degrees, LEO at 600 and 1200 km at 30 degrees) the basic LoS path loss without shadow fading is within 0.1 dB of the table, and the S band scintillation loss is 2.2 dB.", "quantifier": "all accepted configurations with the carrier and elevation of a case, every area and direction", "why_tests_cant": "Tests print or compare with a tolerance of 0.5 dB averages over random shadow fading.", "anchors": ["OpenNTN/utils.py: compute_pathloss_basic, compute_pathloss_scintilation", "test/Link_Budget_test.py"]}
{"id": "C119", "title": "Losses fall when the satellite rises", "statement": "At fixed altitude, carrier and atmosphere, free space loss and gas loss are strictly smaller at the higher of two elevations; gas losses are in the inverse ratio of the sines of the elevations, and the S band scintillation loss does not depend on the elevation.", "quantifier": "all pairs of accepted configurations with the same carrier and different elevations, all altitudes and physical atmospheres", "why_tests_cant": "A comparison over two continuous elevations.", "anchors": ["OpenNTN/utils.py: compute_pathloss_basic, compute_pathloss_gas, compute_pathloss_scintilation"]}
{"id": "C120", "title": "Doppler switch", "statement": "The switch in force is the one last passed to the scenario's set_topology, or else the one passed to the constructor; the channel model always uses the one of the constructor. Switched off, the satellite speed has no influence and the channel of a resting UT is constant over time. Switched on, for satellites at 600 km and above, all paths between all antennas are shifted by the same frequency, satellite speed over wavelength.", "quantifier": "all accepted configurations, all histories of calls, all links, rays, antennas and times", "why_tests_cant": "All call histories; tests never switch the Doppler effect off.", "anchors": ["OpenNTN/system_level_scenario.py: set_topology, doppler_enabled", "OpenNTN/channel_coefficients.py: _step_11_doppler_matrix"]}
{"id": "C121", "title": "Sampling rate only refines the time grid", "statement": "Generating with m times the sampling rate and the same random draws gives, at every m-th sample, the coefficients of the slower rate; delays are the same.", "quantifier": "all channel model states, random draws, rates and integer factors", "why_tests_cant": "Needs two generations with identical random draws.", "anchors": ["OpenNTN/channel_coefficients.py: ChannelCoefficientsGenerator.__call__", "OpenNTN/system_level_channel.py: __call__"]}
{"id": "C122", "title": "A batch is the collection of its examples", "statement": "After any calls of set_topology that succeeded, any examples of the batch (selected, reordered or repeated), simulated on their own with the same random draws, give the same outcomes, attributes and channel impulse responses as in the batch.", "quantifier": "all accepted configurations, batch sizes, selections, call histories, random draws", "why_tests_cant": "Relates simulations with different batch sizes and identical random draws, over all histories.", "anchors": ["OpenNTN/system_level_scenario.py: set_topology, _compute_distance_2d_3d_and_angles", "OpenNTN/system_level_channel.py: set_topology, __call__", "OpenNTN/rays.py", "OpenNTN/lsp.py"]}
{"id": "C123", "title": "Horizontal position of the scene does not matter", "statement": "Displacing UTs and satellites horizontally by a common vector (one for each batch example) changes no outcome of set_topology, no attribute other than the positions, and no channel impulse response.", "quantifier": "all accepted configurations, call histories (failed calls included), displacements, random draws", "why_tests_cant": "Relates two simulations over all histories with identical random draws.", "anchors": ["OpenNTN/system_level_scenario.py: _compute_distance_2d_3d_and_angles", "OpenNTN/system_level_channel.py: set_topology, __call__", "OpenNTN/lsp.py: _compute_lsp_spatial_correlation_sqrt"]}
{"id": "C124", "title": "Heading of the scene does not matter", "statement": "Turning the scene about a vertical axis (positions, bearings and velocities of UTs and satellites, each batch example by an angle of its own) changes no outcome of set_topology, no attribute other than these and the azimuths, and no channel impulse response.", "quantifier": "all accepted configurations, call histories without a satellite vertically above or below a UT, angles, random draws, antenna arrays", "why_tests_cant": "Relates two simulations with identical random draws; exercises every rotation and every azimuth of the code at once.", "anchors": ["OpenNTN/system_level_scenario.py: _compute_distance_2d_3d_and_angles", "OpenNTN/rays.py: _azimuth_angles", "OpenNTN/channel_coefficients.py: _gcs_to_lcs, _compute_psi, _rot_pos, _step_11", "OpenNTN/system_level_channel.py: __call__"]}
{"id": "C125", "title": "A generation works on the latest scene", "statement": "A generation call uses the velocities, orientations, positions, indoor states and LoS request passed last in successful set_topology calls; LoS departure directions point from the BS to the UT; rays are generated with the altitude of the BS, the mean zenith spread of departure of the link's table and the zenith offset of its LoS state and distance.", "quantifier": "all accepted configurations, call histories with one BS and UTs apart", "why_tests_cant": "Stale or crossed-over attributes give plausible channels; tests set a topology once on a fresh object.", "anchors": ["OpenNTN/system_level_channel.py: set_topology, __call__", "OpenNTN/rays.py: __call__, _zenith_angles_of_departure", "OpenNTN/system_level_scenario.py: set_topology"]}
{"id": "C126", "title": "A complete topology call leaves no trace of earlier calls", "statement": "A set_topology call that passes all locations, orientations, velocities and indoor states succeeds or fails independently of what was done with the object before; if it succeeds, the resulting state (and hence everything generated afterwards) is the same whatever was done before, provided it says whether LoS is requested or no earlier call did.", "quantifier": "all accepted configurations, pairs of call histories (also with failing calls), arguments, random draws", "why_tests_cant": "Compares objects with different pasts; leftovers of caches show up only as slightly wrong statistics.", "anchors": ["OpenNTN/system_level_scenario.py: set_topology", "OpenNTN/system_level_channel.py: set_topology", "OpenNTN/lsp.py: topology_updated_callback", "OpenNTN/rays.py: topology_updated_callback"]}
{"id": "C127", "title": "Scenario attributes report the current scene", "statement": "After a topology was set successfully, every documented public attribute of the scenario can be read; sizes, positions, orientations, velocities, indoor states, heights, distances, angles, LoS states and atmosphere are those of the current scene, the free space loss is that of the reported distance, and spatial_correlation_matrix is the exponential correlation of the UT positions.", "quantifier": "all accepted configurations, histories of topology calls with at least one successful recomputation (also with failing calls)", "why_tests_cant": "Tests read attributes after one successful call; getters of values that only some histories produce are not exercised.", "anchors": ["OpenNTN/system_level_scenario.py: SystemLevelScenario properties", "OpenNTN/system_level_scenario.py: spatial_correlation_matrix", "OpenNTN/utils.py: compute_pathloss_basic"]}
{"id": "C128", "title": "Cloud attenuation follows ITU-R P.840", "statement": "For temperatures from 216 K to 400 K the cloud attenuation of compute_pathloss_additional is the liquid water content times the coefficient of P.840 for the double Debye permittivity of water, divided by the sine of the elevation; it is positive for a positive content and falls strictly with the elevation.", "quantifier": "all positive frequencies, elevations from 10 to 90 degrees, temperatures from 216 K to 400 K, all atmospheres", "why_tests_cant": "The function is not called anywhere, no test reaches it.", "anchors": ["OpenNTN/utils.py: compute_pathloss_additional"]}
{"id": "C129", "title": "Rain attenuation per kilometre follows ITU-R P.838", "statement": "The specific rain attenuation of compute_pathloss_additional is k R^alpha with k and alpha of ITU-R P.838 for circular polarisation and R the rain rate given to set_topology.", "quantifier": "all accepted carrier frequencies, elevations, rain rates", "why_tests_cant": "The function is not called anywhere, no test reaches it.", "anchors": ["OpenNTN/utils.py: compute_pathloss_additional"]}
{"id": "C130", "title": "The cloud and rain loss can be computed", "statement": "After a topology was set in the standard atmosphere with a satellite at 500 km or more, compute_pathloss_additional returns a loss.", "quantifier": "all accepted configurations and histories of topology calls with a successful recomputation", "why_tests_cant": "The only call of the function is commented out, no test reaches it.", "anchors": ["OpenNTN/utils.py: compute_pathloss_additional", "OpenNTN/system_level_scenario.py: update_topology"]}
{"id": "C131", "title": "The attributes of an array agree with each other", "statement": "The positions reported for a polarisation are those of the antennas in its index list; a dual polarised array lists all positions for both polarisations in the same order, with fields at right angles and of equal power; with single polarisation the first polarisation is the whole array in order and the attributes of the second raise an assertion.", "quantifier": "every array that can be constructed, every direction", "why_tests_cant": "Tests look at one array; the code pairs the lists by position only implicitly.", "anchors": ["OpenNTN/antenna.py: PanelArray properties"]}
{"id": "C132", "title": "TDL profiles are those of the standard", "statement": "A tapped delay line can only be built for the names NTN-TDL-A to D and TDLA30, TDLB100, TDLC300; each has the delays, mean powers, number of taps and K-factor of the profile published under its name, with the delay spread given by the user or, for the last three, by the profile.", "quantifier": "every accepted TDL configuration", "why_tests_cant": "A wrong or exchanged table looks like any other channel; only a comparison of all values for every name and every delay spread finds it.", "anchors": ["OpenNTN/tdl.py: TDL.__init__", "OpenNTN/tdl.py: TDL._load_parameters", "OpenNTN/tdl.py: mean_powers", "OpenNTN/tdl.py: delays", "OpenNTN/models/TDL-*.json"]}
{"id": "C133", "title": "CDL profiles agree with the TDL profiles of the same name", "statement": "A clustered delay line has the delays, powers and K-factor of the tapped delay line profile of the same name. At the satellite end all rays have zenith angle 140 degrees and azimuth zero; at the terminal the clusters have the azimuth and zenith angles of the model table and spreads of 7 degrees in zenith and 15 degrees (with LoS 11 degrees) in azimuth; the cross polarisation ratio is 10 dB (with LoS 16 dB). The LoS arrives from the direction opposite to its departure. The uplink exchanges the ends.", "quantifier": "every accepted CDL configuration with non-negative delay spread, every ray", "why_tests_cant": "Two sets of files that must agree, for all rays and both directions.", "anchors": ["OpenNTN/cdl.py: CDL.__init__", "OpenNTN/cdl.py: CDL._load_parameters", "OpenNTN/models/CDL-*.json", "OpenNTN/models/TDL-*.json"]}
{"id": "C134", "title": "A generated channel is finite with probability one", "statement": "The draws of a generation call can make the channel undefined only on a null set: with standard normal draws for the large scale parameters, and for all values of all other draws, every coefficient and delay of every outdoor UT is a finite number with probability one, whatever happened before; if the parameters are drawn by set_topology, this holds for all generation calls until they are drawn again. No condition on the K-factor is needed.", "quantifier": "every scenario, log of calls, probability space with standard normal draws, other draw, antenna pair, path and time sample", "why_tests_cant": "The exceptional K-factors are roots of three polynomials; sampling never meets them and cannot show that there are no others.", "anchors": ["OpenNTN/system_level_channel.py: __call__", "OpenNTN/rays.py: RaysGenerator.__call__", "OpenNTN/rays.py: _cluster_delays", "OpenNTN/rays.py: _azimuth_angles", "OpenNTN/rays.py: _zenith_angles", "OpenNTN/lsp.py: LSPGenerator.__call__"]}
{"id": "C135", "title": "Removing the last UTs changes nothing for the others", "statement": "Simulating only the first UTs of a scene, with the arguments and draws they had in the full scene, gives the same outcome of every set_topology and generation call, the same attributes and the same channel impulse response for each of them, after any history of calls (provided none failed because a spatial correlation matrix was not positive definite). In particular nothing about a UT depends on the position, state, velocity or draws of a UT with a higher number.", "quantifier": "every scenario, number of UTs kept and removed, log of calls, draw, antenna pair, path and time sample", "why_tests_cant": "The statement compares two simulations of different sizes for all histories; the only coupling is through a Cholesky factor, whose leading part must be shown to be the factor of the leading part.", "anchors": ["OpenNTN/system_level_scenario.py: set_topology", "OpenNTN/lsp.py: LSPGenerator.__call__", "OpenNTN/lsp.py: topology_updated_callback", "OpenNTN/system_level_channel.py: set_topology", "OpenNTN/system_level_channel.py: __call__"]}
{"id": "C136", "title": "Numbering of the UTs does not affect statistics", "statement": "The joint distribution of the large scale parameters of a set of UTs depends only on these UTs: not on the order in which they are numbered and not on which other UTs are simulated with them.", "quantifier": "every scenario, number, position and state of UTs, selection and order of UTs, probability space with standard normal draws", "why_tests_cant": "A distributional statement over all scenes and selections; a test sees samples of one scene in one order.", "anchors": ["OpenNTN/lsp.py: LSPGenerator.__call__", "OpenNTN/lsp.py: _compute_cross_lsp_correlation_matrix", "OpenNTN/lsp.py: _compute_lsp_spatial_correlation_sqrt"]}
{"id": "C137", "title": "Both precisions work", "statement": "In single and in double precision a topology can be generated and set (either band, LoS states drawn or requested), a TDL model can be created and every antenna pattern can be evaluated, and all resulting tensors have the element type of the precision.", "quantifier": "for both precisions, all combinations of arguments that are left out, Python numbers or tensors of the right type, both bands, all patterns", "why_tests_cant": "Tests run in the default precision; an operation on tensors of different element types only fails when the other precision is selected.", "anchors": ["OpenNTN/utils.py: drop_uts_in_sector", "OpenNTN/utils.py: generate_uts_topology", "OpenNTN/system_level_scenario.py: set_topology", "OpenNTN/utils.py: compute_pathloss_basic", "OpenNTN/tdl.py: _compute_doppler", "OpenNTN/antenna.py: _radiation_pattern_circular_aperture"]}
{"id": "C138", "title": "LoS states are drawn independently with the tabulated probability", "statement": "If no LoS state was ever requested, then after an accepted set_topology call that passes UT locations, BS locations or indoor states (one BS, requests within the recorded elevation rows), the LoS states of the links, as random variables of the uniform and normal numbers drawn by the call, are independent; a link of an outdoor UT is in LoS with exactly the probability of TR 38.811 Table 6.6.1-1 for the area and the nearest elevation row, and a link of an indoor UT is never in LoS.", "quantifier": "all scenario classes, bands, directions, elevation angles at which the row is determined, all earlier histories without a LoS request, all batch sizes and numbers of UTs, all probability spaces carrying independent draws", "why_tests_cant": "tests estimate one frequency from a finite sample for one parameter set; independence between links and equality of the probability cannot be observed", "anchors": ["OpenNTN/system_level_scenario.py: _sample_los", "OpenNTN/utils.py: sample_bernoulli", "OpenNTN/system_level_scenario.py: los_probability"]}
{"id": "C139", "title": "Basic path loss has the tabulated conditional law", "statement": "In the situation of C138, given that a link is in LoS its basic path loss in dB is normally distributed about the free-space loss of its 3D distance with the LoS shadow-fading deviation of TR 38.811 Tables 6.6.2-1 to 6.6.2-3; given NLoS it is normally distributed about the free-space loss plus clutter loss with the NLoS deviation; and the pairs (LoS state, path loss) of different links are independent.", "quantifier": "all scenario classes, bands, directions, elevation angles at which the row is determined, all earlier histories without a LoS request, all batch sizes, all measurable sets of losses, all probability spaces carrying independent draws", "why_tests_cant": "a conditional law over all measurable sets and independence across links are statements about infinitely many events; tests compare single draws with a tolerance", "anchors": ["OpenNTN/system_level_scenario.py: _compute_pathloss_basic", "OpenNTN/utils.py: compute_pathloss_basic"]}
{"id": "C140", "title": "Path coefficients are uncorrelated between paths and stationary in time", "statement": "Over initial phases that are independent and uniform on (-pi, pi], the mean of a path coefficient is the specular component with its K-factor share on the first path of a LoS link and zero otherwise; coefficients of different paths are uncorrelated for any antennas and times; the covariance within a path between two antenna pairs and two times is the sum over its rays of a twentieth of the cluster power times the product of the antenna fields and a phase which advances with the antenna displacement along the ray and with Doppler frequency times lag, so it depends on time only through the lag.", "quantifier": "all numbers of clusters, powers, angles, delays, cross-polarisation ratios, antennas, orientations, velocities, times, both LoS states, both directions", "why_tests_cant": "The statement is an expectation over a continuous law of eighty phases per cluster; a test estimates it from samples with an error that hides a missing phase or a shared one.", "anchors": ["OpenNTN/channel_coefficients.py: _step_10", "OpenNTN/channel_coefficients.py: _step_11_nlos", "OpenNTN/channel_coefficients.py: _step_11", "OpenNTN/channel_coefficients.py: __call__"]}
{"id": "C141", "title": "Frequency response is stationary in time and frequency", "statement": "The frequency response of a link, computed by cir_to_ofdm_channel from its path coefficients and delays, has over the random phases the mean of the specular component, and a covariance between antenna pairs, times and frequencies which depends on time and frequency only through lag and frequency difference: a sum over rays of a twentieth of the cluster power times the product of the antenna fields, with phases that advance with antenna displacement and Doppler frequency times lag, and back with delay times frequency difference.", "quantifier": "all numbers of clusters, powers, angles, delays, cluster delay spreads, antennas, orientations, velocities, times, subcarrier frequencies, both LoS states, both directions", "why_tests_cant": "An expectation over a continuous law for every pair of subcarriers and times; a sample estimate does not distinguish small errors of sub-cluster delays or phases.", "anchors": ["OpenNTN/channel_coefficients.py: _step_11_nlos", "OpenNTN/channel_coefficients.py: __call__", "OpenNTN/utils.py: cir_to_ofdm_channel"]}
{"id": "C142", "title": "Without sub-clusters every cluster is one path", "statement": "If the generator is built without sub-clusters, a link has one path per cluster, in the order of the cluster delays; its coefficient is the sum of the rays of the cluster, on LoS links scaled by 1/(K+1) in power with the specular component added with share K/(K+1) on the first path. Over independent uniform phases different paths are uncorrelated and the covariance within a path is that of its rays.", "quantifier": "all numbers of clusters, powers, angles, delays (also equal ones), cross-polarisation ratios, antennas, orientations, velocities, times, both LoS states, both directions", "why_tests_cant": "The option subclustering=False is not reached by the scenarios of the repository; delays may be permuted in any way, and the covariance is an expectation over a continuous law.", "anchors": ["OpenNTN/channel_coefficients.py: _step_11_reduce_nlos", "OpenNTN/channel_coefficients.py: _step_11", "OpenNTN/channel_coefficients.py: __call__"]}
{"id": "C143", "title": "TDL calls with spatial correlation keep the mean powers", "statement": "For a constructed TDL model and correlation matrices that are Hermitian, positive definite and have ones on the diagonal, a call succeeds, returns the reported delays for every batch example, and averaged over the phases every tap has its reported mean power at every antenna pair and every time.", "quantifier": "all models, delay spreads, numbers of antennas, batch sizes, correlation matrices (joint, receive, transmit, or none), draws, sampling rates, times", "why_tests_cant": "The mean is over a continuous law of phases and the matrices range over all positive definite ones; with a sample mean an excess of a few per cent at one antenna is not distinguishable from noise.", "anchors": ["OpenNTN/tdl.py: __call__", "OpenNTN/tdl.py: __init__", "OpenNTN/tdl.py: mean_powers", "OpenNTN/tdl.py: delays"]}
{"id": "C144", "title": "Clusters follow the laws of TR 38.901 steps 5, 6 and 9", "statement": "Ray generation turns independent uniform and normal numbers into clusters such that there are independent random variables for all clusters of all links: a raw delay, positive and exponentially distributed with mean delay scaling times delay spread (distribution function exact up to 1e-6, from the clipping of the uniform numbers), a shadowing in dB, normal with mean zero and the tabulated deviation, and for each of the 20 rays a ratio in dB, normal with tabulated mean and deviation. On a link with some active clusters the delays are the raw delays less the smallest one, in ascending order and on LoS links divided by the scaling of step 5 (inactive clusters have raw delay 1 s), powers of active clusters are proportional to exp(-delay (r-1)/(r DS)) 10^(-shadowing/10) and the others are zero, and the cross-polarisation ratios are the ones drawn.", "quantifier": "all scenario classes, bands, directions, elevation angles, numbers of clusters, batch sizes, all LSPs with positive delay spread and K-factor, both LoS states, all probability spaces carrying independent draws", "why_tests_cant": "laws of continuous random variables and their independence between clusters, links and examples; a histogram neither separates an exponential law with a wrong mean of a few per cent nor sees shared draws", "anchors": ["OpenNTN/rays.py: _cluster_delays", "OpenNTN/rays.py: _cluster_powers", "OpenNTN/rays.py: _cross_polarization_power_ratios", "OpenNTN/rays.py: __call__"]}
{"id": "C145", "title": "Topologies of a batch are generated independently", "statement": "gen_single_sector_topology generates a batch of topologies: UTs of different batch examples are placed independently of each other; within the drop, displacements from the centre are independent and uniform in a square of the inter-site distance, heights and speeds uniform in the configured ranges and headings uniform over the full turn, all independent; every UT is outdoors and moves horizontally.", "quantifier": "all scenarios, all parameters with elevation in (0, 90], ordered ranges, all batch sizes and numbers of UTs, all probability spaces carrying independent uniform draws", "why_tests_cant": "independence between batch examples and exact laws; unit tests look at shapes and ranges of single batches, where a shared centre looks like a plausible drop", "anchors": ["OpenNTN/utils.py: drop_uts_in_sector", "OpenNTN/utils.py: generate_uts_topology", "OpenNTN/utils.py: gen_single_sector_topology"]}
{"id": "C146", "title": "Random coupling is uniform and independent", "statement": "The couplings of TR 38.901 step 8, obtained by sorting standard normal numbers, are random permutations of the 20 rays, one for each kind of angle and each cluster of each BS and batch example, which are independent of each other and take each of the 20! values with the same probability; the angles of ray r are those of ray sigma(r) before coupling, and delays, powers and cross-polarisation ratios do not depend on the coupling.", "quantifier": "all scenarios, inputs, draws, numbers of clusters, BSs, UTs, batch sizes, all 20! permutations, all probability spaces carrying independent normal numbers", "why_tests_cant": "20! permutations cannot be enumerated, and uniformity and independence are statements about probabilities; a cyclic shift or one shared permutation passes a test on sets of angles", "anchors": ["OpenNTN/rays.py: _shuffle_angles", "OpenNTN/rays.py: _random_coupling", "OpenNTN/rays.py: __call__"]}
{"id": "C147", "title": "LoS phase belongs to the path length", "statement": "The phase factor of the LoS path for its length d is exp(j 2 pi d / lambda) up to 1/2, in either precision, carried out operation by operation with rounding to nearest. In exact arithmetic it is the factor of the model.", "quantifier": "both precisions, every rounding to nearest (any tie rule), carriers 0.1 to 100 GHz, every length from 1 m to 42 000 km that the format can represent", "why_tests_cant": "rounding errors depend on each operand; tests compare single values with a tolerance and never see the phase modulo a full turn", "anchors": ["OpenNTN/channel_coefficients.py: _step_11_los", "OpenNTN/channel_coefficients.py: __init__"]}
{"id": "C148", "title": "Doppler phase follows the movement", "statement": "Over ten seconds, with up to 2^24 samples, the phase factor due to the movement of terminal and satellite is within 1/10 of the exact one, in either precision, carried out operation by operation with rounding to nearest. In exact arithmetic it is the factor of the model.", "quantifier": "both precisions, every rounding to nearest, carriers 0.1 to 100 GHz, every representable radial speed up to 1000 m/s (terminal) and 8000 m/s (satellite), every sampling frequency and sample number", "why_tests_cant": "accumulated rounding over long sequences; a bound over all operands", "anchors": ["OpenNTN/channel_coefficients.py: _step_11_doppler_matrix", "OpenNTN/channel_coefficients.py: __call__"]}
{"id": "C149", "title": "Single precision does not disturb slant range and path loss", "statement": "In single precision the slant range is within 10 m plus a millionth of the altitude of the exact one, despite the cancellation of the Earth radius, and the free space path loss over it within 0.02 dB.", "quantifier": "every rounding to nearest, every sine accurate to 2^-23 and logarithm accurate to a relative 2^-21, elevation angles 10 to 90 degrees, altitudes 8 km to 42 000 km, carriers 0.1 to 100 GHz", "why_tests_cant": "worst case over all operands of an expression with cancellation", "anchors": ["OpenNTN/system_level_scenario.py: _compute_distance_2d_3d_and_angles", "OpenNTN/utils.py: compute_pathloss_basic"]}
{"id": "C150", "title": "All tensor operations fit together and the output has the documented shape", "statement": "For every scenario that can be constructed, all antenna arrays, both directions and all options: after a scene for B examples, one satellite and U UTs has been set in any earlier state, and any sequence of further calls of set_topology with arguments of these sizes, no operation between set_topology and the returned channel meets tensors whose shapes do not fit, and the coefficients and delays have the documented shapes, with the larger number of clusters plus four paths.", "quantifier": "all constructible scenarios, numbers of antennas, polarisations, directions, options, earlier states, positive B and U, sequences of partial updates, numbers of samples", "why_tests_cant": "Tests run a few sizes; a wrong axis is invisible where two sizes agree or one of them is 1, as is usual in tests with one satellite.", "anchors": ["OpenNTN/system_level_channel.py: set_topology", "OpenNTN/system_level_channel.py: __call__", "OpenNTN/rays.py: __call__", "OpenNTN/lsp.py: __call__", "OpenNTN/channel_coefficients.py: _step_11"]}
{"id": "C151", "title": "Arguments that disagree about the number of examples or UTs are rejected", "statement": "If the arguments of set_topology that are in force disagree about the batch size or the number of UTs, then set_topology or the generation of the channel raises an error.", "quantifier": "all first scenes, later arguments and options", "why_tests_cant": "A test of mismatched sizes usually takes two sizes other than 1, which fail; the sizes that are silently repeated are found only by considering all pairs.", "anchors": ["OpenNTN/system_level_scenario.py: set_topology", "OpenNTN/system_level_channel.py: set_topology", "OpenNTN/system_level_channel.py: __call__"]}
{"id": "C152", "title": "Cluster directions follow the law of TR 38.901 step 7", "statement": "Given delays and powers of an outdoor link, the deviation of a cluster from the centre, in units of the spread of the link, is the shape psi that belongs to its power (Gaussian profile in azimuth, Laplacian in zenith) with a fair random sign plus a normal perturbation with deviation 1/7; the deviations of all clusters of the link in all four directions are independent. Without LoS the mean of a direction is the direction of the line of sight (zenith of departure: plus offset) and its variance s^2 (psi^2 + 1/49); with LoS the first cluster is on the line of sight, and the others have it as their mean and the variance s^2 (psi^2 + psi_0^2 + 2/49).", "quantifier": "all configurations, links, LSPs with positive K-factor, delays and shadowings, both LoS states, all probability spaces carrying independent fair signs and standard normal numbers", "why_tests_cant": "a law with two modes and the independence of 4 M variables; a test of means cannot see a sign shared by all clusters, a test of spreads needs thousands of drops and tolerances of several per cent", "anchors": ["OpenNTN/rays.py: RaysGenerator._azimuth_angles", "OpenNTN/rays.py: RaysGenerator._zenith_angles", "OpenNTN/rays.py: __call__"]}
{"id": "C153", "title": "Conversion of taps to the resource grid keeps energy and is invertible", "statement": "time_to_ofdm_channel with at most fft_size taps: for each OFDM symbol the mean over subcarriers of the squared magnitude of the response equals the energy of the taps at the first sample after the cyclic prefix, and these taps are recovered from the response by the inverse transform with lags from l_min on. For taps normalised by cir_to_time_channel and a channel constant in time, the resource elements of every link that is not zero have mean energy one over antennas, symbols and subcarriers.", "quantifier": "all grids, numbers of taps up to fft_size, lags, series of taps, numbers of antennas, paths and time samples, bandwidths", "why_tests_cant": "an identity over all complex arrays of all sizes; a wrong roll or centring keeps the energy, a wrong scale keeps the shape, and comparisons with a reference share the same FFT conventions", "anchors": ["OpenNTN/utils.py: time_to_ofdm_channel", "OpenNTN/utils.py: cir_to_time_channel"]}
{"id": "C154", "title": "Shapes fit from the generated topology to the frequency response", "statement": "For every constructible scenario the topology of gen_single_sector_topology is accepted by set_topology, the channel is generated, and cir_to_ofdm_channel, cir_to_time_channel and time_to_ofdm_channel accept the result and return the documented shapes; the last raises if and only if there are more taps than fft_size. Delays per link and per antenna pair both work, and different numbers of examples or paths, none of them one, are rejected. A TDL call returns the documented shapes if the correlation matrices in use have the sizes of the arrays and raises otherwise.", "quantifier": "all scenarios, arrays, directions, options, numbers of examples, UTs, samples, frequencies, lags and grids; all TDL models, numbers of antennas and correlation matrices", "why_tests_cant": "broadcasting hides wrong axes whenever sizes coincide or are one; tests use a handful of size combinations", "anchors": ["OpenNTN/utils.py: gen_single_sector_topology", "OpenNTN/utils.py: cir_to_ofdm_channel", "OpenNTN/utils.py: cir_to_time_channel", "OpenNTN/utils.py: time_to_ofdm_channel", "OpenNTN/tdl.py: __call__"]}
{"id": "C155", "title": "Large-scale parameters are jointly lognormal and independent between states", "statement": "Behind the seven large-scale parameters of all UTs are jointly normal variables with mean zero and variance one; each parameter is ten to the tabulated mean plus deviation times its variable, capped at 104 or 52 degrees, and has the corresponding law. The covariance of two variables is the tabulated cross-correlation times a factor that for one parameter is the spatial correlation, is at most one, and is zero for UTs in different states. The parameters of the UTs in one state (LoS, NLoS, indoor) are independent of those of all other UTs.", "quantifier": "all scenarios, numbers and positions of UTs, LoS and indoor states, probability spaces", "why_tests_cant": "joint laws and independence are statements about all events; sample correlations of a few topologies cannot separate joint normality from equal marginals", "anchors": ["OpenNTN/lsp.py: __call__", "OpenNTN/lsp.py: topology_updated_callback"]}
{"id": "C156", "title": "TDL accepts exactly correlation matrices", "statement": "A TDL model with spatial correlation accepts the matrices in use (the joint one, else those for receiver and transmitter) if and only if they are Hermitian and positive definite.", "quantifier": "All array sizes, all complex matrices given or omitted, all path coefficients", "why_tests_cant": "Tests pass well-formed matrices; whether a malformed one is noticed depends on which triangle of it a library routine reads", "anchors": ["OpenNTN/tdl.py: __init__", "OpenNTN/tdl.py: __call__"]}
{"id": "C157", "title": "Whole numbers may be written as integers", "statement": "A topology can be generated whether its numeric arguments are Python floats, Python integers, float32 tensors or left out; all results are float32.", "quantifier": "every combination of kinds of the seven numeric arguments", "why_tests_cant": "The default arguments and examples use floats; the type depends on how a number is written, in all combinations of arguments.", "anchors": ["OpenNTN/utils.py: gen_single_sector_topology", "OpenNTN/utils.py: drop_uts_in_sector"]}
{"id": "C158", "title": "Entries of the parameter files have the element type their use needs", "statement": "In every scenario, at every angle and in both precisions the numbers of clusters are integer tensors; every parameter returned by `get_param` has the floating-point type of the precision, although some entries are written as integers; the entries used without conversion (LoS probability, clutter loss, standard deviations of shadow fading) have that type; and entries stored as integers are whole numbers.", "quantifier": "every pair of parameter files of a scenario, angle, requested parameter, precision", "why_tests_cant": "A single entry written without a decimal point raises a type error only in the scenario, band and angle that read it.", "anchors": ["OpenNTN/system_level_scenario.py: _load_params", "OpenNTN/system_level_scenario.py: get_param", "OpenNTN/utils.py: compute_pathloss_basic", "OpenNTN/models/*Urban*.json"]}
{"id": "C159", "title": "Arrows shown at the nodes are the axes of their arrays", "statement": "In the figure drawn by show_topology the red, green and blue lines at every BS and UT start at the node and point along the x, y and z axis of its array's local coordinate system, that is, along the columns of the rotation given by its orientation. Each is a tenth of the figure long when lengths along each axis are measured relative to the spread of all nodes.", "quantifier": "All topology states, numbers of BSs and UTs, batch and BS indices, orientations; the spread in no direction is zero.", "why_tests_cant": "A figure is looked at, not compared; a wrong sign in one of nine trigonometric terms shows only for particular orientations.", "anchors": ["OpenNTN/system_level_channel.py: show_topology"]}
{"id": "C160", "title": "A topology is shown to scale", "statement": "In the figure drawn by show_topology all BSs and UTs are drawn at their places with one common factor, 1 or 1/1000, and all three axis labels name the unit of that factor.", "quantifier": "All scenarios, histories of set_topology calls, batch and BS indices.", "why_tests_cant": "Tests do not look at figures; the figure is produced without error in every case.", "anchors": ["OpenNTN/system_level_channel.py: show_topology"]}
{"id": "C161", "title": "Every node is shown once, in its group", "statement": "After a topology with one BS was accepted, show_topology succeeds and scatters exactly one point per BS and per UT; a UT belongs to the group indoor, LoS or NLoS given by its indoor state and its LoS state towards the chosen BS.", "quantifier": "All scenarios, histories of set_topology calls with at least one accepted call, batch and BS indices.", "why_tests_cant": "Tests do not look at figures; which states a UT can be in depends on the whole history of calls.", "anchors": ["OpenNTN/system_level_channel.py: show_topology"]}
{"id": "C162", "title": "An array is drawn as it radiates", "statement": "PanelArray.show succeeds for every array that can be constructed and draws every antenna exactly once, at its y and z coordinate, by a line along the direction of the field it radiates to the front; the antennas of the first polarization carry their index plus one.", "quantifier": "All arrays: sizes, spacings, patterns, polarizations, carrier frequencies.", "why_tests_cant": "Tests do not look at figures; markers and slant angles are set at two unrelated places of the code.", "anchors": ["OpenNTN/antenna.py: PanelArray.show", "OpenNTN/antenna.py: PanelArray.__init__"]}
{"id": "C163", "title": "The window of taps keeps the channel over the band", "statement": "Over the band, the response of the taps of a window deviates from the frequency response of the paths, in the mean square, by exactly the energy that the window leaves out; no other taps of the window come closer. With the window returned by time_lag_discrete_time_channel and delays up to the given maximum, the deviation is at most 1/(3 pi^2) of the squared sum of the moduli of the coefficients, and a single path keeps between 96.6 and 100 per cent of its energy.", "quantifier": "all bandwidths, windows, numbers of paths, real delays, complex coefficients, links, antennas, time samples", "why_tests_cant": "The worst case is over a continuum of delays between the sample instants and of coefficients, and the deviation is an integral over frequency of a series over infinitely many lags; a test evaluates finitely many delays and frequencies and knows no bound for the lags left out.", "anchors": ["OpenNTN/utils.py: cir_to_time_channel", "OpenNTN/utils.py: time_lag_discrete_time_channel", "OpenNTN/utils.py: cir_to_ofdm_channel"]}
{"id": "C164", "title": "An antenna element is drawn with its gain", "statement": "AntennaElement.show draws the gain in dB over the zenith angle and over the azimuth, each from end to end with boresight included, and a surface whose distance from the origin is in every direction the gain (or differs between directions by the difference in dB), boresight included.", "quantifier": "all patterns, slant angles, directions of the grid", "why_tests_cant": "A figure has no assertion to test; that a grid of any even size misses boresight and that a base was passed as a name is visible only by reasoning about all points drawn.", "anchors": ["OpenNTN/antenna.py: show", "OpenNTN/antenna.py: _radiation_pattern_circular_aperture"]}
{"id": "C165", "title": "A panel is drawn in wavelengths", "statement": "AntennaPanel.show marks every element at its place in wavelengths, numbered from one column by column, and marks the second polarization at the same places exactly for dual polarization.", "quantifier": "all numbers of rows and columns, spacings (zero and negative included), polarizations", "why_tests_cant": "Figures are not tested, and the numbers of rows and columns are unbounded.", "anchors": ["OpenNTN/antenna.py: AntennaPanel.show", "OpenNTN/antenna.py: AntennaPanel.__init__"]}
{"id": "C166", "title": "UTs are dropped in a uniform direction", "statement": "The azimuth of the point around which UTs are dropped, seen from the point below the satellite, is uniform over the sector, an interval of angles.", "quantifier": "all altitudes, elevation angles in (0, 90), all probability spaces carrying a uniform number", "why_tests_cant": "Any single drop is plausible; the law shows only in many drops, and the deviation depends on no parameter that a test could vary.", "anchors": ["OpenNTN/utils.py: drop_uts_in_sector"]}
{"id": "C167", "title": "Circular scattering, independent paths and links", "statement": "Given the rays, over the random initial phases: the random parts of the coefficients of a link, taken jointly over all paths, antennas and times, keep their joint law when all are turned by the same angle (circular symmetry, hence zero pseudo-covariance). The coefficients of different paths of a link are independent as processes over antennas and time. The coefficients that one call returns for different links, over batch examples and UTs, are independent, in downlink and uplink.", "quantifier": "all generators, topologies, K-factors, rays, angles; all channel states, configurations, draws other than the phases, numbers of batch examples and UTs", "why_tests_cant": "Equality of joint laws and independence of whole processes cannot be tested by finitely many samples.", "anchors": ["OpenNTN/channel_coefficients.py: _step_10", "OpenNTN/channel_coefficients.py: _step_11_nlos", "OpenNTN/channel_coefficients.py: _step_11", "OpenNTN/channel_coefficients.py: __call__", "OpenNTN/system_level_channel.py: __call__"]}
{"id": "C168", "title": "Scenario and arrays have the same carrier frequency", "statement": "A scenario can be constructed with two antenna arrays only if both were made for exactly the carrier frequency of the scenario, in both precisions and whatever the rounding of wavelengths does; with equal frequencies the comparison never fails.", "quantifier": "for both precisions, every rounding to nearest, and all carrier frequencies from 100 MHz to 100 GHz of the scenario and of the two arrays", "why_tests_cant": "The check compares wavelengths after rounding; tests try equal frequencies and frequencies that are far apart, the outcome for near frequencies depends on where rounding boundaries lie.", "anchors": ["OpenNTN/system_level_scenario.py: __init__", "OpenNTN/antenna.py: 446-575"]}
{"id": "C169", "title": "TDL taps fade like Rayleigh and Rice", "statement": "Over the random phases of a TDL model: the fourth moment of a tap of mean power P made of N sinusoids is (2 - 1/N) P^2, and for the first tap of a LoS model with Ricean factor K it is (K^2 + 4K + 2 - 1/N)(P/(K+1))^2. As the number of sinusoids grows, the difference of a tap from its mean converges in distribution to a circular normal variable with power P, or P/(K+1) for the first tap of a LoS model, so that the probability that its power is at most y tends to 1 - exp(-y/S); the mean is zero, or of power P K/(K+1).", "quantifier": "all built-in TDL models, numbers of sinusoids, delay spreads, speeds, taps, antennas and times; the limit for every sequence of channels with growing number of sinusoids", "why_tests_cant": "A limit law over infinitely many configurations; a test compares one histogram with a tolerance.", "anchors": ["OpenNTN/tdl.py: 415-506"]}
{"id": "C170", "title": "Paths of a scenario fade at most like Rice fading", "statement": "Over the random initial phases, given the rays: the variance of the power of a path between two antennas is at most (mean power)^2 - (power of its mean)^2, the value for Rice fading with the same constant part; it is strictly smaller when the path has a scattered part. Without LoS, and on all paths but the first, the constant part is zero, so the variance is at most the one of Rayleigh fading.", "quantifier": "all generators, topologies, K-factors, rays, antennas and times", "why_tests_cant": "Needs exact fourth moments over all phases and all sets of rays; a test sees one set of rays with sampling noise.", "anchors": ["OpenNTN/channel_coefficients.py: __call__", "OpenNTN/channel_coefficients.py: _step_10", "OpenNTN/channel_coefficients.py: _step_11"]}
{"id": "C171", "title": "The import graph loads without cycles that break", "statement": "After installation the package can be imported under both of its names (OpenNTN and sionna.phy.channel.tr38811), any of its modules first, in any order and mixed with imports of Sionna, exactly if Sionna already has the names the package needs at the point where its channel package reaches the inserted line; afterwards the imported package has every class and module it offers.", "quantifier": "all sequences of imports, all orders, all install states with the link, all sets of names Sionna has at the inserted line", "why_tests_cant": "A test imports the package once, in one order; a partially initialised module shows only in particular orders of imports.", "anchors": ["OpenNTN/__init__.py: imports", "OpenNTN/*.py: import statements", "post_install.py: line_to_add"]}
{"id": "C172", "title": "Objects of the package work together under both import names", "statement": "A scenario accepts antenna arrays of the package whichever name (OpenNTN or sionna.phy.channel.tr38811) they were imported by.", "quantifier": "all sessions of imports, all pairs of array classes, both names", "why_tests_cant": "Tests import the package under one name only.", "anchors": ["OpenNTN/system_level_scenario.py: __init__", "install.sh: ln", "README.md: installation"]}
{"id": "C173", "title": "The package can be imported on its own", "statement": "The package can be imported when it has not been integrated into Sionna (no link, no inserted line).", "quantifier": "all install states, all sequences of imports", "why_tests_cant": "Test machines have the package integrated.", "anchors": ["OpenNTN/__init__.py: imports", "OpenNTN/*.py: import statements", "README.md: installation"]}
{"id": "C174", "title": "The installation works wherever pip puts the packages", "statement": "After the installation script has run, the package can be imported, for every directory in which pip has installed the packages.", "quantifier": "all directories, all contents of the disk on which the packages are installed", "why_tests_cant": "Tests run in a few directories of the test machine.", "anchors": ["install.sh: pip show, ln", "post_install.py: main"]}
{"id": "C175", "title": "The installation script changes only what it installs, and can be repeated", "statement": "The installation script changes nothing but the init file of Sionna's channel package and the link next to it, and running it again changes nothing.", "quantifier": "all disks with the packages installed, all directories without spaces, any number of runs, both scripts", "why_tests_cant": "The effect of later runs is on files nobody looks at, and any number of runs cannot be tested.", "anchors": ["install.sh: curl, ln, rm", "install_legacy.sh: curl, ln, rm", "post_install.py: main"]}
{"id": "C176", "title": "Slant range is the distance of satellite and UT", "statement": "When a UT sees the satellite at the elevation of the scenario, by their positions, the slant range (from which free-space loss, gas loss and absolute delay are computed) is the Euclidean distance of the positions (from which the arrays' directions are computed).", "quantifier": "every scenario, sequence of topology calls, positions, batch and UT", "why_tests_cant": "The slant range is of a spherical Earth and the positions are in a plane; the difference is small near the zenith, and whether it vanishes is a question about all elevations.", "anchors": ["OpenNTN/system_level_scenario.py: 808-821 (slant range)", "OpenNTN/system_level_scenario.py: 779-844 (_compute_distance_2d_3d_and_angles)"]}
{"id": "C177", "title": "UTs see the satellite at the elevation of the scenario", "statement": "In every topology accepted by set_topology the UTs see the satellite at the elevation angle the scenario was made for.", "quantifier": "every scenario, sequence of topology calls, batch and UT", "why_tests_cant": "Tests use topologies made for the scenario; that nothing ties the two elevations together shows only over all accepted topologies.", "anchors": ["OpenNTN/system_level_scenario.py: 779-844 (_compute_distance_2d_3d_and_angles)", "OpenNTN/utils.py: gen_single_sector_topology"]}
{"id": "C178", "title": "Direction at the satellite and slant range belong to one triangle", "statement": "For a UT on the ground that sees the satellite at the elevation of the scenario, the reported LoS direction at the satellite and the slant range are those of one triangle of UT, satellite and centre of the Earth (law of sines).", "quantifier": "every scenario, sequence of topology calls, positions, batch and UT", "why_tests_cant": "Angles and slant range are each plausible; that they contradict one another is a relation over the whole range of elevations.", "anchors": ["OpenNTN/system_level_scenario.py: 808-821 (slant range)", "OpenNTN/system_level_scenario.py: 823-844 (angles)"]}
{"id": "C179", "title": "A call of the channel model keeps the precision", "statement": "In either precision a channel model whose topology was accepted can be called with a sampling frequency that is a Python number or of that precision, and coefficients and delays have that precision.", "quantifier": "both precisions, every frequency band, switch of the coefficient computation, element type of orientations and velocities, and kind of sampling frequency", "why_tests_cant": "Element types are checked by TensorFlow at run time and only along the branch that is taken; whether some combination of accepted inputs raises is a question about all branches.", "anchors": ["OpenNTN/channel_coefficients.py: 55-137 (Topology)", "OpenNTN/channel_coefficients.py: 1108-1119 (Faraday rotation)", "OpenNTN/channel_coefficients.py: 163-330 (__call__)", "OpenNTN/system_level_scenario.py: set_topology"]}
{"id": "C180", "title": "A scenario accepts arrays of its own precision only", "statement": "A scenario can be created with antenna arrays of a given precision exactly if both arrays have the precision of the scenario.", "quantifier": "all precisions of the two arrays and the scenario", "why_tests_cant": "Tests create everything with the default precision.", "anchors": ["OpenNTN/system_level_scenario.py: 88-101 (constructor)", "OpenNTN/antenna.py: 513"]}
{"id": "C181", "title": "Conversions of impulse responses keep the precision", "statement": "An impulse response of either precision can be converted to frequency and to time, with a result of its precision, exactly if the subcarrier frequencies were computed in the same precision, and spacing and bandwidth are Python numbers or tensors of that type.", "quantifier": "both precisions of frequencies and impulse response, every kind of spacing and bandwidth, with and without normalisation", "why_tests_cant": "Default arguments have matching types; which other combinations raise is a question about all kinds of arguments.", "anchors": ["OpenNTN/utils.py: 54-70 (subcarrier_frequencies)", "OpenNTN/utils.py: 218-255 (cir_to_ofdm_channel)", "OpenNTN/utils.py: 304-345 (cir_to_time_channel)"]}
{"id": "C182", "title": "A TDL model can be created and called in either precision", "statement": "In either precision a TDL model can be created and called, with coefficients and delays of that precision, for delay spread and sampling frequency that are Python numbers or tensors of that precision.", "quantifier": "both precisions, every kind of delay spread and sampling frequency, all branches of the call", "why_tests_cant": "Double precision and tensors given to the setter of the delay spread are not exercised by any test.", "anchors": ["OpenNTN/tdl.py: 296-345 (constructor)", "OpenNTN/tdl.py: 409-413 (setter)", "OpenNTN/tdl.py: 415-541 (call)"]}
{"id": "C183", "title": "Seeding Sionna's generator makes the channel reproducible", "statement": "Two runs of a program that call a channel model with the same arguments, with the same seed of Sionna's generator, return the same coefficients and delays.", "quantifier": "all sequences of topology calls with any arguments, all draws of TensorFlow's own generator, every scenario, array and sampling frequency", "why_tests_cant": "A test that sets both seeds, or that compares within one process started with a fixed global seed, sees equal results; the statement is about all draws of the generator that is not seeded.", "anchors": ["OpenNTN/lsp.py: 127", "OpenNTN/utils.py: 533", "OpenNTN/rays.py: 296, 364, 462, 466, 624, 628, 745, 830", "OpenNTN/channel_coefficients.py: 102, 506", "OpenNTN/system_level_scenario.py: 875"]}
{"id": "C184", "title": "Single precision does not disturb the conversions to frequency and time", "statement": "For bands up to 400 MHz and delays up to 10 us, the rounding of subcarrier frequencies, path phases and tap positions changes the response at each subcarrier by at most a fiftieth, and each tap by at most a hundredth, of the sum of the path amplitudes; in double precision accordingly less.", "quantifier": "both precisions, every rounding to nearest, every number of paths, coefficient, delay, subcarrier, spacing and bandwidth (at least 1 Hz) and tap number up to 5000 in these ranges", "why_tests_cant": "Rounding errors depend on every input; tests compare a few responses of one precision.", "anchors": ["OpenNTN/utils.py: 66-70 (subcarrier_frequencies)", "OpenNTN/utils.py: 239-243 (cir_to_ofdm_channel)", "OpenNTN/utils.py: 319-331 (cir_to_time_channel)"]}
{"id": "C185", "title": "Path loss of a UT has the mixture law of TR 38.811", "statement": "If no LoS state was requested, the basic path loss of an outdoor UT is with the tabulated LoS probability normal about the free space loss with the LoS deviation, and otherwise normal about free space loss plus clutter loss with the NLoS deviation; its mean is free space loss plus NLoS probability times clutter loss, its variance the probability-weighted variances plus p(1-p) times the squared clutter loss. For an indoor UT it is normal about free space loss plus clutter loss. UTs are independent.", "quantifier": "all scenarios, histories of calls, numbers of UTs, positions and indoor states, all probability spaces carrying the draws", "why_tests_cant": "A distribution and its moments are integrals over all draws; a test sees samples.", "anchors": ["OpenNTN/system_level_scenario.py: _sample_los", "OpenNTN/utils.py: 1768-1785 (basic path loss)", "OpenNTN/system_level_scenario.py: set_topology"]}
{"id": "C186", "title": "Moving towards the satellite raises the frequency of the specular path", "statement": "In every scene reached through set_topology calls, the movement of a UT turns the coefficient of the specular (LoS) path by exp(2 pi i f_c/c s t), where s is the speed at which the UT approaches the BS (the velocity passed last projected on the direction from the UT to the BS), downlink and uplink.", "quantifier": "all scenarios, histories of calls with one BS, positions, velocities, arrays, times", "why_tests_cant": "A wrong sign of the Doppler shift is invisible in magnitudes and in any statistic of an isotropic scene; a test has to fix a geometry and track a phase.", "anchors": ["OpenNTN/system_level_scenario.py: 823-831", "OpenNTN/channel_coefficients.py: 546-634", "OpenNTN/channel_coefficients.py: 987-1051"]}
{"id": "C187", "title": "Specular path and first cluster come from the same direction", "statement": "In LoS outdoors the rays of the first cluster leave the BS and arrive at the UT in the direction of the specular path, up to the ray offsets times the spreads within a cluster.", "quantifier": "all scenarios, topologies, draws of rays, rays of the first cluster", "why_tests_cant": "Specular path and rays are combined in one coefficient; their directions are only visible through antenna patterns and Doppler shifts, which tests do not separate.", "anchors": ["OpenNTN/system_level_scenario.py: 823-831", "OpenNTN/rays.py: 404-490", "OpenNTN/rays.py: 556-668", "OpenNTN/channel_coefficients.py: 987-1051"]}
{"id": "C188", "title": "Polarisation mixing neither creates nor destroys power", "statement": "Between arrays with two polarisations, the average power of a path over the initial phases, summed over both polarisations at both ends, is twice the element gains in the directions of its rays times the ray powers and one plus the inverse cross polarisation ratio (and twice the gains times K/(K+1) for the specular path): Faraday rotation, orientation of the arrays around the direction, type of polarisation and time make no difference.", "quantifier": "all pairs of dual polarised arrays, patterns, orientations, rays, K-factors, frequencies, altitudes, times, antennas of each polarisation", "why_tests_cant": "The sum is an integral over all initial phases of a coefficient built from rotated fields, for every geometry.", "anchors": ["OpenNTN/channel_coefficients.py: 511-544", "OpenNTN/channel_coefficients.py: 720-985", "OpenNTN/channel_coefficients.py: 1108-1119", "OpenNTN/antenna.py: 500-560"]}
{"id": "C189", "title": "The whole channel is reciprocal in law", "statement": "Read from the other end, the uplink channel of a link has the law of its downlink channel: every quantity that depends on the path coefficients of all antennas and times and on the delays has the same average over the initial phases in both directions.", "quantifier": "all links, arrays, orientations, rays, K-factors, altitudes, quantities (arbitrary functions of coefficients and delays); for calls: all states, batches, numbers of UTs", "why_tests_cant": "Equality of laws of complex tensors; two runs draw different phases, so their outputs cannot be compared.", "anchors": ["OpenNTN/channel_coefficients.py: 491-545", "OpenNTN/channel_coefficients.py: 720-1051", "OpenNTN/system_level_channel.py: 190-269"]}
{"id": "C190", "title": "The installation contains every file that is needed, and only the package", "statement": "Every module of the package and every table that a constructor of a scenario, TDL or CDL model opens is among the files that pip installs, where the code looks for it; and nothing outside of the package OpenNTN is installed.", "quantifier": "every constructible scenario, TDL and CDL model; every checkout with the files of the repository and possibly more", "why_tests_cant": "Tests run in the checkout, where all files are present; the top-level package 'test' is only noticed in an installation.", "anchors": ["setup.py: packages, include_package_data", "MANIFEST.in", "OpenNTN/system_level_scenario.py: _load_params"]}
{"id": "C191", "title": "Options of a channel model arrive where they belong", "statement": "Every argument given to DenseUrban, Urban or SubUrban, by position or by keyword, arrives at the attribute of the channel model or its scenario that belongs to its name; arguments not given have their default there.", "quantifier": "all three classes, all mixtures of positional and keyword arguments, all values", "why_tests_cant": "The arguments pass through three constructors with different parameter lists; tests set a few of them by keyword.", "anchors": ["OpenNTN/dense_urban.py: 129-139", "OpenNTN/urban.py: 129-139", "OpenNTN/sub_urban.py: 129-139", "OpenNTN/dense_urban_scenario.py: 68-82", "OpenNTN/system_level_scenario.py: 63-126 (__init__)", "OpenNTN/system_level_channel.py: 59-79 (__init__)"]}
{"id": "C192", "title": "Documented defaults of channel models", "statement": "A parameter of DenseUrban, Urban or SubUrban that is not given has the default stated in the documentation.", "quantifier": "all three classes, all calls, all parameters with a documented default", "why_tests_cant": "Defaults are seldom looked at by tests, least of all those without effect.", "anchors": ["OpenNTN/dense_urban.py: 87-108, 129-132", "OpenNTN/urban.py: 87-108, 129-132", "OpenNTN/sub_urban.py: 87-108, 129-132"]}
{"id": "C193", "title": "The documented call makes a channel model", "statement": "The call shown in the documentation of DenseUrban, Urban and SubUrban makes a channel model.", "quantifier": "all three classes; for the exact condition: all positional and keyword arguments", "why_tests_cant": "Examples in documentation are not run by tests.", "anchors": ["OpenNTN/dense_urban.py: 44-47, 129-139", "OpenNTN/urban.py: 44-47, 129-139", "OpenNTN/sub_urban.py: 44-47, 129-139"]}
{"id": "C194", "title": "Options of antenna arrays arrive where they belong", "statement": "Every argument given to PanelArray, Antenna or AntennaArray, by position or by keyword, arrives at the attribute of the array that belongs to its name; arguments not given have their documented default; the positions, indices and patterns are those of these attributes.", "quantifier": "all three classes, all mixtures of positional and keyword arguments, all values", "why_tests_cant": "Antenna and AntennaArray pass on to PanelArray under other names; exchanged rows and columns or spacings are not seen with square arrays.", "anchors": ["OpenNTN/antenna.py: 446-574, 755-767, 813-831"]}
{"id": "C195", "title": "Options of TDL models arrive where they belong", "statement": "Every argument given to TDL, by position or by keyword, arrives at the attribute that belongs to its name and at the computation of tables and Doppler shifts; arguments not given have their documented default.", "quantifier": "all mixtures of positional and keyword arguments, all values (correlation matrices left out)", "why_tests_cant": "Fifteen parameters; tests set a few by keyword.", "anchors": ["OpenNTN/tdl.py: 152-215, 237-327"]}
{"id": "C196", "title": "Options of the topology generator arrive where they belong", "statement": "Every argument given to gen_single_sector_topology, by position or by keyword, is used under its own name; arguments not given stay open and are set by the scenario.", "quantifier": "all mixtures of positional and keyword arguments, all values, all draws", "why_tests_cant": "The arguments are passed on by position in another order.", "anchors": ["OpenNTN/utils.py: 612-621, 990-1001, 1128-1139"]}
{"id": "C197", "title": "Documented parameters are accepted", "statement": "Every parameter in the documentation of PanelArray, Antenna, AntennaArray, TDL, DenseUrban, Urban, SubUrban and gen_single_sector_topology can be given by keyword.", "quantifier": "all documented parameters of all these callables; for the failures: all calls that name the parameter", "why_tests_cant": "Tests call with the names of the code.", "anchors": ["OpenNTN/antenna.py: 394-443, 729-753, 776-811", "OpenNTN/tdl.py: 152-215", "OpenNTN/dense_urban.py: 67-113", "OpenNTN/utils.py: 1062-1104"]}
{"id": "C198", "title": "Calls in documented examples succeed", "statement": "Every call of an array, TDL model, channel model or topology in the examples of the documentation succeeds.", "quantifier": "all these examples, all draws", "why_tests_cant": "Examples in documentation are not run by tests.", "anchors": ["OpenNTN/antenna.py: 382-389", "OpenNTN/tdl.py: 87-91", "OpenNTN/dense_urban.py: 32-47", "OpenNTN/utils.py: 1028-1050, 1240-1258"]}
{"id": "C199", "title": "The simulations of the example notebooks run", "statement": "Every simulation of the three example notebooks runs from beginning to end: arrays and channel model are made, a topology of the requested size is generated, and with probability one set_topology and the generation call return an impulse response of the requested direction in which all coefficients and delays are numbers.", "quantifier": "all simulations of the notebooks (all their scenarios, satellite heights, elevations, carrier frequencies, numbers of UTs), and any other configuration, satellite height and elevation; all draws of LoS states, rays and phases; almost all draws of locations and large-scale parameters; all sampling frequencies and antenna arrays", "why_tests_cant": "Notebooks are run by hand on a few draws; a topology in which two UTs coincide or a large-scale parameter hits a root has probability zero, but nobody can enumerate the rest.", "anchors": ["example/BER_sims.ipynb: cells 3, 5, 8, 12", "example/channel_response.ipynb: cells 4-10, 15, 23, 31-42", "example/ML_based_SIMO_receiver.ipynb: cells 8-12", "OpenNTN/system_level_channel.py: 59-269", "OpenNTN/utils.py: 537-610, 845-1191"]}
{"id": "C200", "title": "Single precision does not break the drop of the UTs", "statement": "In single precision, with every operation of drop_uts_in_sector rounded, both square roots of the drop have non-negative arguments for every draw, and the centre point lies at planar distance h/tan(elevation) from the satellite's ground point up to a three hundredth of the slant range (about 0.2 degrees of elevation), although squares of slant range and height are subtracted.", "quantifier": "all satellite heights from 8 km to 42000 km, all elevations from 10 to 90 degrees, all unit draws of TensorFlow (multiples of 2^-23 below one), any choice of the nearest number in ties", "why_tests_cant": "The second radicand becomes negative only for draws next to the upper end of the interval, one in millions; whether it does depends on the last bits of height, sine and draw.", "anchors": ["OpenNTN/utils.py: 585-588"]}
{"id": "C201", "title": "The delay spread of a delay line is the requested one", "statement": "The root mean square delay spread of the taps of a TDL or CDL model, weighted with the reported powers including the specular one, equals the delay spread requested at construction or by the later assignment, up to 0.01 percent; for A30, B100 and C300 it is that in the name up to 0.4 percent.", "quantifier": "every accepted TDL or CDL configuration with non-negative delay spread, every later value of the delay spread", "why_tests_cant": "A property of all table values together and of the treatment of the specular power; no single value shows it.", "anchors": ["OpenNTN/tdl.py: delays", "OpenNTN/tdl.py: mean_powers", "OpenNTN/tdl.py: delay_spread", "OpenNTN/cdl.py: delays", "OpenNTN/cdl.py: powers", "OpenNTN/models/TDL-*.json", "OpenNTN/models/CDL-*.json"]}
{"id": "C202", "title": "Motion of the UT alone spreads the Doppler spectrum", "statement": "Every path coefficient is, as a function of time, a finite sum of oscillations whose frequencies differ by at most speed over wavelength from one shift that is common to all paths, clusters and antennas; the shift is at most the radial speed of the satellite at the elevation over the wavelength, and zero below 600 km or with Doppler disabled. For a UT at rest all coefficients rotate together and no magnitude changes. A TDL tap is a sampled sum of oscillations within its Doppler frequency.", "quantifier": "all links, rays, phases, velocities, heights, elevations from 0 to 90 degrees, with and without sub-clusters, all antennas and times; all TDL draws", "why_tests_cant": "A spectrum needs an unbounded observation; a few samples cannot tell a slow leak from an oscillation.", "anchors": ["OpenNTN/channel_coefficients.py: 546-634", "OpenNTN/channel_coefficients.py: 847-1051", "OpenNTN/tdl.py: __call__"]}
{"id": "C203", "title": "Only heights of satellites are accepted", "statement": "The topology generator refuses base station heights below 600 km or above 36000 km; for all heights in between it places the satellite there.", "quantifier": "all scenarios, arguments, heights and draws", "why_tests_cant": "Only two heights were ever tested, and those tests are disabled.", "anchors": ["OpenNTN/utils.py: 1149-1153", "OpenNTN/utils.py: 990-1191", "OpenNTN/channel_coefficients.py: 609", "OpenNTN/channel_coefficients.py: 875"]}
{"id": "C204", "title": "A plane wave couples two arrays by one component per polarisation", "statement": "The matrix of coefficients between the antennas of two arrays has, for the specular path and for every ray, rank at most one if one of the arrays has a single polarisation and at most two otherwise; if both have a single polarisation all entries have the same magnitude.", "quantifier": "all arrays, numbers of antennas, links, rays, phases and times", "why_tests_cant": "A rank is a statement about all antenna pairs at once; a wrong element position or a response that depends on the pair raises it without changing any power.", "anchors": ["OpenNTN/channel_coefficients.py: 636-845", "OpenNTN/channel_coefficients.py: 847-1051", "OpenNTN/antenna.py: PanelArray"]}
{"id": "C205", "title": "Clusters of a LoS link fan out from the LoS direction", "statement": "In LoS, for K-factors within two standard deviations of their tabulated mean, the azimuth and zenith of the clusters deviate from those of the first cluster in the order of their powers, the weaker the more, and by no more than a fixed multiple of the angular spread (apart from random signs and perturbations).", "quantifier": "all accepted configurations, cluster powers with the first one strongest, spreads, and common K-factors", "why_tests_cant": "The scaling polynomials change sign at K-factors that no test draws on purpose; the resulting angles are still valid angles.", "anchors": ["OpenNTN/rays.py: 445-474", "OpenNTN/rays.py: 610-636", "OpenNTN/models/Urban_LOS_Ka_band_DL.json: muK, sigmaK"]}
{"id": "C206", "title": "No draw makes coefficients large or lets them jump", "statement": "Whatever initial phases are drawn, the coefficient of a path is at most the root of the product of the largest element gains times the sum of the amplitudes of its rays, weighted with the K-factor, plus that of the specular path for the first; per second it changes by at most this times the largest Doppler shift that the speeds of UT and satellite allow; and between two subcarriers the frequency response changes by at most 2 pi times their distance times the sum of path magnitudes times delays.", "quantifier": "all arrays, orientations, links, rays, K-factors, initial phases, antennas, times, subcarriers and batches", "why_tests_cant": "A worst case over a continuum of phases, directions and times; simulated maxima only give lower bounds.", "anchors": ["OpenNTN/channel_coefficients.py: 491-544", "OpenNTN/channel_coefficients.py: 546-634", "OpenNTN/channel_coefficients.py: 720-1106", "OpenNTN/utils.py: 184-255"]}
{"id": "C207", "title": "Coherence bandwidth and coherence time follow from delay spread and UT speed", "statement": "Averaged over the initial phases, the covariance of the scattered frequency response at two subcarriers is at least its power times 1 - 2 (pi D s)^2, where D is their distance and s the root mean square of the delays weighted with the mean ray powers; at two times it is at least its power times 1 - 2 (pi f t)^2, where t is the lag and f the Doppler shift at the speed of the UT. The motion of the satellite, common to all paths, does not reduce the coherence.", "quantifier": "all links, arrays, rays, K-factors, antennas, subcarriers, times, reference delays", "why_tests_cant": "An inequality for integrals over all initial phases, for every channel.", "anchors": ["OpenNTN/channel_coefficients.py: 491-1106", "OpenNTN/utils.py: 184-255"]}
{"id": "C208", "title": "Isolation of the polarisations of upright antennas", "statement": "Between upright antennas of a single polarisation (bearing only), a ray passes to the same polarisation cos^2 psi + sin^2 psi / X of its power times the element gains and to the other one sin^2 psi + cos^2 psi / X, where X is the cross polarisation ratio and psi the Faraday angle; the specular path passes cos^2 psi and sin^2 psi. In every accepted scenario the specular path keeps more than three quarters of its power, in the Ka band all but 1/36000.", "quantifier": "all pairs of V and H arrays, patterns, bearings, rays, K-factors, altitudes, accepted carrier frequencies, times, antennas", "why_tests_cant": "Mean powers over all initial phases, for every direction of the rays.", "anchors": ["OpenNTN/channel_coefficients.py: 365-425", "OpenNTN/channel_coefficients.py: 511-544", "OpenNTN/channel_coefficients.py: 720-985", "OpenNTN/channel_coefficients.py: 1108-1119", "OpenNTN/antenna.py: 65-81"]}
{"id": "C209", "title": "Beams of an array have the gain and the pattern of its geometry", "statement": "Weights of unit norm at both arrays raise the power of a plane wave by at most the product R T of the numbers of antennas; weights matched to other directions reach R T times one beam gain per side. The beam gain of a panel array is the product of the interference patterns of its rows and columns of elements and of panels. With elements at most half a wavelength apart it is full towards the direction of the beam and the mirror image at the plane of the panel only; one wavelength apart there are others.", "quantifier": "all panel arrays of a single polarisation, carrier frequencies, orientations, directions, weights", "why_tests_cant": "Maximum over all weights and equality of a trigonometric pattern for every direction.", "anchors": ["OpenNTN/antenna.py: 281-319", "OpenNTN/antenna.py: 446-575", "OpenNTN/channel_coefficients.py: 636-718"]}
{"id": "C210", "title": "UTs that are dropped apart stay apart in single precision", "statement": "In single precision, with every operation rounded, the distance of two generated UTs that goes into their spatial correlation is that of their random displacements up to 1 m. UTs on the same point would have a singular correlation matrix, for which no channel can be generated.", "quantifier": "every rounding to nearest, all satellite heights from 8 km to 42000 km, elevations from 10 to 90 degrees, areas of 100 m to 5 km, all unit draws of TensorFlow", "why_tests_cant": "Coordinates are rounded to steps that grow with the distance of the satellite's ground point; tests use one low satellite and few UTs.", "anchors": ["OpenNTN/utils.py: 598-608", "OpenNTN/system_level_scenario.py: 834-844", "OpenNTN/lsp.py: 385-398"]}
{"id": "C211", "title": "Range of taps and subcarrier grid survive single precision", "statement": "With every operation rounded, the largest lag of the discrete-time channel is the documented ceil(bandwidth x maximum delay spread) + 6, so that the range covers all delays with a margin of six taps; the frequencies of 5G subcarriers are exact.", "quantifier": "all bandwidths from 1 Hz to 1 THz, all delay spreads of at most 10^7 samples, every rounding to nearest; all subcarriers of grids of up to 17895 subcarriers and spacings 15 x 2^mu kHz", "why_tests_cant": "A product of two decimal numbers that should be an integer may come out just above or below it; whether the ceiling is then off by one depends on the numbers.", "anchors": ["OpenNTN/utils.py: 59-70", "OpenNTN/utils.py: 179-182"]}
{"id": "C212", "title": "Wrapping of angles survives rounding", "statement": "With every operation rounded, wrapped angles are in the closed range from 0 to 360 degrees, azimuths of rays from -180 to 180 and zeniths from 0 to 180; up to whole turns (and, for zeniths, reflection) they are the angle of the cluster plus the scaled offset of the ray, with an error of at most unit x (1.1 |cluster| + 2.2 |offset| + 550) degrees.", "quantifier": "all angles of clusters and scaled offsets of up to 10^6 degrees, single and double precision, every rounding to nearest", "why_tests_cant": "Errors of the wrapping only show for angles next to a multiple of 360 or 180 degrees, which random angles do not hit.", "anchors": ["OpenNTN/utils.py: 486-500", "OpenNTN/rays.py: 482-488", "OpenNTN/rays.py: 657-664"]}
{"id": "C213", "title": "Delays and powers of clusters survive rounding", "statement": "With every operation rounded, the delays of the clusters start at exactly zero, are not negative and ascend, with and without LoS scaling; the normalised powers lie between 0 and 1, each is within (M+2) units of its exact value, their sum is within (M+3) units of one, and the largest power, by which the generation of angles divides, is positive.", "quantifier": "all draws, delay spreads up to 1 s, K-factors from -50 to 50 dB (up to 10^20 for angles), up to M = 20 clusters, every order of the additions in the sum, single and double precision, every rounding to nearest", "why_tests_cant": "The order of the additions in a reduction depends on the device, and zero divisions or unsorted delays need particular combinations of draws.", "anchors": ["OpenNTN/rays.py: 301-320", "OpenNTN/rays.py: 378-388", "OpenNTN/rays.py: 456"]}
{"id": "C214", "title": "Directions keep their accuracy in the coordinates of an array", "statement": "With every operation of the coordinate change rounded, the direction with the computed local zenith and azimuth is the given direction turned back by the attitude of the array, up to 2^-16 in every component.", "quantifier": "all orientations and directions with angles of the format up to 10 rad, library functions accurate to 2^-23 (sine, cosine) and 2^-21 (arccosine, angle), every rounding to nearest", "why_tests_cant": "The loss of accuracy is confined to directions near the vertical axis of an array, such as satellites near the zenith, and random tests compare with loose tolerances.", "anchors": ["OpenNTN/channel_coefficients.py: 227-248", "OpenNTN/channel_coefficients.py: 250-279", "OpenNTN/channel_coefficients.py: 319-363"]}
{"id": "C215", "title": "Phases between antennas survive rounding", "statement": "With every operation rounded, the factor for a pair of antennas is the one of a plane wave with the given angles of arrival and departure over the places of the antennas in the oriented arrays, up to 3e-4 per wavelength of the largest coordinate: unlike the phases due to the length of the path and to time, it keeps its accuracy in single precision.", "quantifier": "all orientations and directions with angles up to 10 rad, carrier frequencies from 100 MHz to 100 GHz, antennas up to 100 wavelengths from the centre along each axis, library functions accurate to 2^-23 and 2^-21, single and double precision, every rounding to nearest", "why_tests_cant": "Tests use small arrays; the growth of the error with the size of an array is not covered.", "anchors": ["OpenNTN/channel_coefficients.py: 227-248", "OpenNTN/channel_coefficients.py: 250-299", "OpenNTN/channel_coefficients.py: 636-718"]}
{"id": "C216", "title": "Polarisation survives the change of coordinates with rounding", "statement": "With every operation rounded, the field components in global coordinates are those of the local field turned with the array, up to 2.2e-5 of the amplitude divided by the sine of the angle to the vertical axis of the array.", "quantifier": "all orientations with angles up to 5 rad and directions up to 4 rad, amplitudes from 1e-6 to 1e6, library functions accurate to 2^-23 and 2^-21, single and double precision, every rounding to nearest", "why_tests_cant": "The displacement angle is the phase of a difference of nearly equal products near the axis of an array; tests do not probe how the error grows there.", "anchors": ["OpenNTN/channel_coefficients.py: 365-394", "OpenNTN/channel_coefficients.py: 396-425"]}
{"id": "C217", "title": "Pattern of the circular aperture is defined and accurate with rounding", "statement": "In single precision, with every operation rounded, the argument of tf.acos is in [-1, 1], a quotient that is used never divides by zero, and the power is between 0 and 1.0002, within 1/100 of the pattern, zero behind the antenna and one where the direction rounds to the axis.", "quantifier": "all directions with angles up to 10 rad, all library functions accurate to 2^-23 (sine, cosine), 2^-21 (arc cosine) and 2^-22 (Bessel function) with sine and cosine at most one and acos(1) = 0, every rounding to nearest", "why_tests_cant": "Near the axis the quotient is 0/0 and the arc cosine loses half of its digits; tests look at a few directions.", "anchors": ["OpenNTN/antenna.py: 171-191"]}
{"id": "C218", "title": "TDL taps keep their accuracy over a simulation", "statement": "In single precision, with every operation rounded and the sinusoids added in any order, every tap coefficient with up to twenty sinusoids is within a tenth of its exact value up to ten seconds.", "quantifier": "all draws, tap powers up to one, with and without specular path, Doppler frequencies up to 10^8 rad/s, all sampling frequencies from 1 to 10^11 Hz, up to 2^24 time steps, every rounding to nearest, library functions accurate to 2^-23 (2^-22 for large arguments)", "why_tests_cant": "The error grows with time and Doppler frequency; a test with a short signal does not see it.", "anchors": ["OpenNTN/tdl.py: 417-506"]}
{"id": "C219", "title": "Element patterns with lobes are accurate with rounding", "statement": "With every operation rounded, in single and double precision, the power of the 38.901 and dlp patterns is within 0.04 percent of the standardised gain, every field component of an omni, 38.901 or dlp element is within 1/500 of its exact value, and outside the lobe (1.8 or 2.28 rad from the boresight in azimuth or zenith) all directions have one and the same power.", "quantifier": "all zenith and azimuth angles up to 4 rad, all slant angles up to 4 rad, all library functions accurate to 2^-23 (sine, cosine) and 2^-20 relative (power), every rounding to nearest", "why_tests_cant": "Angles where the limit of the lobe sets in depend on the rounding; tests compare a few angles with the same expression.", "anchors": ["OpenNTN/antenna.py: 65-81, 151-169, 193-223"]}
{"id": "C220", "title": "Large scale parameters are accurate with rounding", "statement": "With every operation rounded, in single and double precision and in whatever order the library adds, every large scale parameter of up to 100 users is within 1.2 percent of the exact value from the same factors and draws, and the limits of 104 and 52 degrees hold without any error.", "quantifier": "all factors with rows of squared length at most 1.01, all draws up to 6, all deviations up to 2, all means for which decimal logarithms stay within 30 (or are -inf), every order of addition, every rounding to nearest, power functions accurate to 2^-20 relative", "why_tests_cant": "The error depends on the number of users, on the order of addition and on the draws; tests see a few random draws.", "anchors": ["OpenNTN/lsp.py: 120-167"]}
{"id": "C221", "title": "Directions of clusters survive rounding", "statement": "With every operation rounded, in single and double precision, the directions of clusters are defined (the root has no negative argument), azimuths are within a third of a degree and zeniths within a hundredth of a degree of the exact values, and in LoS the first cluster is within 3/10000 of a degree of the LoS direction.", "quantifier": "all numbers of clusters, all powers that are not negative and not all zero, all spreads up to the limits of 104 and 52 degrees, all scaling constants of at least 1/4, all signs, all draws up to 6, all LoS angles up to 360 degrees, logarithms accurate to 2^-20 relative, every rounding to nearest", "why_tests_cant": "The root has an infinite slope for the strongest cluster, so that an error of the last digit of a power becomes 1000 times larger there; tests rarely draw two clusters of nearly equal power.", "anchors": ["OpenNTN/rays.py: 445-474, 610-648"]}
{"id": "C222", "title": "Combination of LoS and NLoS and gain survive rounding", "statement": "With every operation rounded, in single and double precision, the factors of LoS and NLoS components have relative errors below 3e-6 and their squares add up to one up to 1e-5, each combined coefficient is within 1e-5 of the components it is made of, the gain of step 12 is positive with a relative error below 1e-5, and the coefficient after step 12 errs by at most 1.1e-5 of its size.", "quantifier": "all K-factors from 0 to 1e12, all coefficients with a norm up to 1e6, with and without LoS, all path losses up to 400 dB, all shadow fading factors from 1e-8 to 1e8, with and without path loss and shadow fading, libraries accurate to 2^-20 relative, every rounding to nearest", "why_tests_cant": "The gain of a satellite link is near 1e-9 and its product with a coefficient can be close to the smallest numbers of single precision; tests compare a few gains with tolerances above the errors.", "anchors": ["OpenNTN/channel_coefficients.py: 1084-1106", "OpenNTN/system_level_channel.py: 415-429"]}
{"id": "C223", "title": "Assembly of coefficients survives rounding", "statement": "With every operation rounded, in single and double precision, the contribution of a ray is the one of exact arithmetic up to 8e-6 of its bound plus the errors of its factors (2.2 times the one of the field components, 1.1 times those of array and movement); the sum of the rays of a cluster or sub-cluster, in any order of additions, up to 1.1e-5 of its bound plus the same errors; likewise the LoS coefficient, with 1.1 times the error of the factor of the path length. Random phases, cross polarisation, Faraday rotation, matrix products and power scaling are included.", "quantifier": "all carriers from 1 to 100 GHz, all phases, all cross polarisation ratios from 1e-6 up to 1e12, all powers that are zero or at least 1e-20, all field components up to 1000, all errors of factors up to one percent, sums of up to twenty rays in every order, with and without satellite, libraries accurate to 2^-21, every rounding to nearest", "why_tests_cant": "Twenty terms with random phases cancel, and the order of the additions is up to the library and the device; a test compares a run with itself.", "anchors": ["OpenNTN/channel_coefficients.py: 511-544", "OpenNTN/channel_coefficients.py: 792-842", "OpenNTN/channel_coefficients.py: 872-896", "OpenNTN/channel_coefficients.py: 957-972", "OpenNTN/channel_coefficients.py: 1017-1050", "OpenNTN/channel_coefficients.py: 1108-1119"]}
{"id": "C224", "title": "Factor of movement survives rounding", "statement": "With every operation rounded, in single and double precision, the speed of a terminal towards a ray has an error of at most 1.6e-6 of the largest component of its velocity, and the factor of movement is the one of exact arithmetic up to 1.5e-6 for each radian by which the phase may have turned since the first sample, plus 5e-7.", "quantifier": "all carriers from 0.1 to 100 GHz, all angles, velocities with components up to 300 m/s, speeds of satellites up to 8 km/s, all sampling frequencies, all samples up to ten seconds and a rotation of 9000 rad, both directions, every rounding to nearest", "why_tests_cant": "The rotation grows with time and with it the error of its phase; tests use few samples and have no reference in exact arithmetic.", "anchors": ["OpenNTN/channel_coefficients.py: 586-634"]}
{"id": "C225", "title": "Errors of coefficients are not amplified on the way to the caller", "statement": "With every operation rounded, in single and double precision, coefficients of the LoS path and of clusters that have errors up to a fraction of their bounds give, after combination of LoS and NLoS and after path loss and shadow fading, a path coefficient with an error of at most that fraction plus 2.4e-5, relative to the sum of the bounds times the gain.", "quantifier": "all fractions up to a tenth, all bounds up to 1e5, all K-factors from 0 to 1e12, all numbers of paths, all path losses up to 400 dB, all shadow fading factors from 1e-8 to 1e8, with and without LoS, path loss and shadow fading, every rounding to nearest", "why_tests_cant": "Errors of single steps are small in every test; whether they add up or multiply along the chain is a statement about all inputs.", "anchors": ["OpenNTN/channel_coefficients.py: 1084-1106", "OpenNTN/system_level_channel.py: 415-429"]}
{"id": "C226", "title": "Rounding keeps paths and their order up to delays that agree", "statement": "With every operation rounded, in single and double precision, the returned delays of the paths of a link are in ascending order and deviate from the exact sorted delays by at most 5e-7 of the largest delay. Each returned coefficient is the exact coefficient of a path up to the fraction by which rays and LoS path are wrong plus 2.7e-5, relative to the sum of their bounds times the gain. Different places in the order are only possible for paths whose exact delays agree up to twice the deviation of delays.", "quantifier": "all numbers of clusters from two, all powers and delays up to one second, all cluster delay spreads up to a millisecond, all errors of rays up to nine percent, all K-factors, path losses up to 400 dB, all shadow fading factors from 1e-8 to 1e8, with and without LoS, path loss and shadow fading, every rounding to nearest, every order of addition", "why_tests_cant": "Delays that differ by less than the rounding are rare in samples; a wrong assignment of coefficients to delays needs them.", "anchors": ["OpenNTN/channel_coefficients.py: 198-202", "OpenNTN/channel_coefficients.py: 923-985", "OpenNTN/channel_coefficients.py: 1084-1106", "OpenNTN/system_level_channel.py: 218", "OpenNTN/system_level_channel.py: 415-429"]}
{"id": "C227", "title": "The rounded path length turns all LoS coefficients of a link by one angle", "statement": "The phase of the LoS path due to its length is wrong in single precision (C147). With every operation rounded there is one complex number of modulus one for the link, the same for all pairs of antennas and all time samples, so that each computed LoS coefficient is the exact one times this number up to 1e-5 plus the errors of fields, array and movement, relative to the bound of the coefficient. Products of a coefficient with the conjugate of another one, on which beamforming and time correlation depend, are right up to twice that error.", "quantifier": "all path lengths, all antennas within 33 wavelengths of the centre, all samples up to ten seconds with a rotation of up to 6000 rad, all frequencies from 1 to 100 GHz, all orientations and angles up to 10 rad, every rounding to nearest in single and double precision", "why_tests_cant": "Whether an error is common to all antennas and samples cannot be seen from samples of single coefficients; a test that compares coefficients fails for satellites without telling that beamforming is right.", "anchors": ["OpenNTN/channel_coefficients.py: 1017-1050", "OpenNTN/channel_coefficients.py: 586-634", "OpenNTN/channel_coefficients.py: 704-718"]}
{"id": "C228", "title": "Conversions to frequency and time pass errors of the impulse response on", "statement": "With every operation rounded (phases or sinc weights, complex products, and the sum over the paths in any order), a response at a subcarrier and a channel tap computed from coefficients and delays that have errors themselves differ from the exact response and tap of the exact impulse response by the error of the coefficients, the error of the phases due to the delays (1.05 times; 3.4 times the delay error in samples for taps), 1e-6 of the largest phase (of the lag and delay in samples for taps) and 4e-6, relative to the number of paths times the bound of the coefficients. With exact arithmetic the two conversions are those of the model.", "quantifier": "all impulse responses with up to twenty paths, all subcarriers with phases up to 9000 rad, all lags and delays up to 9000 samples, all orders of summation, every rounding to nearest in single and double precision", "why_tests_cant": "The order of the sum over the paths and the error of the inputs are not under control of a test; a test sees sampled responses, not a bound for all of them.", "anchors": ["OpenNTN/utils.py: 237-243", "OpenNTN/utils.py: 318-331", "OpenNTN/utils.py: 66-69"]}
{"id": "C229", "title": "Normalization gives unit energy with rounding", "statement": "With every operation rounded and the energies added in any order, each normalized entry of a frequency response or of the taps differs from the entry divided by the root of the exact mean energy by 3e-6 plus 8e-8 per entry of the mean, relative to its own size, plus 1e-10. Hence the mean energy after normalization is one up to 2.2 times the relative part of this error plus 4e-10 times one plus the number of entries divided by the divisor of the mean (one for responses, the number of taps for taps). This holds for every loss of up to 220 dB: neither the squares nor their sum are lost to underflow. With exact arithmetic the normalized entries are those of the model.", "quantifier": "all responses and taps with up to a million entries, magnitudes up to 10^10 and mean energies from 10^-22 to 10^20, all orders of summation, every rounding to nearest in single and double precision", "why_tests_cant": "A test sees one order of summation on one machine and sampled path losses.", "anchors": ["OpenNTN/utils.py: 245-253", "OpenNTN/utils.py: 333-343"]}
{"id": "C230", "title": "Rounding leaves the frequency response of a link as it is", "statement": "With every operation rounded, from the division of clusters into paths over sorting, combination with the LoS path, path loss and shadow fading to the conversion to frequency, the response at a subcarrier for a pair of antennas and a time differs from the response of the exact impulse response of the channel model by the error of rays and LoS path, 2.1 times the error of the phases due to rounded delays, 1e-6 of the largest phase and 3.5e-5, relative to the number of paths times the bound of the coefficients. Rounding may exchange paths with nearly equal delays (C226); the response does not notice. Rounded delays of paths are never negative.", "quantifier": "all links with up to sixteen clusters, all delays up to a second, all path losses up to 400 dB, all subcarriers with phases up to 9000 rad, all orders of summation, every rounding to nearest in single and double precision", "why_tests_cant": "Which paths are exchanged depends on the last bits of delays; tests with sampled clusters compare paths one by one and meet this rarely.", "anchors": ["OpenNTN/channel_coefficients.py: 923-985", "OpenNTN/channel_coefficients.py: 1084-1106", "OpenNTN/system_level_channel.py: 415-429", "OpenNTN/utils.py: 237-243"]}
{"id": "C231", "title": "Rounding leaves the taps of a link as they are", "statement": "With every operation rounded, from the division of clusters into paths over sorting, combination with the LoS path, path loss and shadow fading to the conversion to discrete time, a tap for a pair of antennas and a time differs from the tap of the exact impulse response of the channel model by the error of rays and LoS path, 5.6 times the error of the delays in samples due to rounding, 1e-6 of the largest lag and delay in samples and 3.5e-5, relative to the number of paths times the bound of the coefficients. Rounding may exchange paths with nearly equal delays (C226); taps do not notice.", "quantifier": "all links with up to sixteen clusters, all delays up to a second, all path losses up to 400 dB, all lags and bandwidths with up to 9000 samples, all orders of summation, every rounding to nearest in single and double precision", "why_tests_cant": "Which paths are exchanged depends on the last bits of delays; tests with sampled clusters compare paths one by one and meet this rarely.", "anchors": ["OpenNTN/channel_coefficients.py: 923-985", "OpenNTN/channel_coefficients.py: 1084-1106", "OpenNTN/system_level_channel.py: 415-429", "OpenNTN/utils.py: 318-331"]}
