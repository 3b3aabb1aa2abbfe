{
 "claims": [
  {
   "property": "C01",
   "status": "proved",
   "theorems": [
    "OpenNTN.C01_construct_iff"
   ],
   "note": ""
  },
  {
   "property": "C02",
   "status": "proved",
   "theorems": [
    "OpenNTN.C02_nearest_row"
   ],
   "note": ""
  },
  {
   "property": "C03",
   "status": "proved",
   "theorems": [
    "OpenNTN.C03_lookups_succeed"
   ],
   "note": ""
  },
  {
   "property": "C04",
   "status": "proved",
   "theorems": [
    "OpenNTN.C04_admissible_values"
   ],
   "note": ""
  },
  {
   "property": "C05",
   "status": "proved",
   "theorems": [
    "OpenNTN.C05_cross_correlation_cholesky"
   ],
   "note": ""
  },
  {
   "property": "C06",
   "status": "proved",
   "theorems": [
    "OpenNTN.C06_pair_coefficients",
    "OpenNTN.C06_any_tables"
   ],
   "note": ""
  },
  {
   "property": "C07",
   "status": "proved",
   "theorems": [
    "OpenNTN.C07_parameter_file",
    "OpenNTN.C07_files_distinct"
   ],
   "note": ""
  },
  {
   "property": "C08",
   "status": "proved",
   "theorems": [
    "OpenNTN.C08_los_monotone"
   ],
   "note": ""
  },
  {
   "property": "C09",
   "status": "partial",
   "theorems": [
    "OpenNTN.C09_scaling_constant_partial",
    "OpenNTN.C09_scaling_constant_violated"
   ],
   "note": "The tables violate the property for Urban and Sub_Urban; proved for Dense_Urban, negation proved with a witness."
  },
  {
   "property": "C26",
   "status": "proved",
   "theorems": [
    "OpenNTN.C26_lsp_ranges"
   ],
   "note": ""
  },
  {
   "property": "C27",
   "status": "partial",
   "theorems": [
    "OpenNTN.C27_lsp_statistics_partial",
    "OpenNTN.C27_tabulated_mean_deviation",
    "OpenNTN.C27_violated"
   ],
   "note": "Marginals and spatial correlation exact; cross-LSP correlation of later UTs is attenuated when correlation distances differ: negation proved with a witness."
  },
  {
   "property": "C28",
   "status": "proved",
   "theorems": [
    "OpenNTN.C28_spatial_correlation"
   ],
   "note": ""
  },
  {
   "property": "C29",
   "status": "proved",
   "theorems": [
    "OpenNTN.C29_spatial_psd"
   ],
   "note": ""
  },
  {
   "property": "C30",
   "status": "partial",
   "theorems": [
    "OpenNTN.C30_zsd_mean_partial",
    "OpenNTN.C30_violated"
   ],
   "note": "Holds in uplink; in downlink the mean is -inf: negation proved."
  },
  {
   "property": "C20",
   "status": "proved",
   "theorems": [
    "OpenNTN.C20_planar_distance"
   ],
   "note": ""
  },
  {
   "property": "C21",
   "status": "proved",
   "theorems": [
    "OpenNTN.C21_slant_range"
   ],
   "note": ""
  },
  {
   "property": "C23",
   "status": "proved",
   "theorems": [
    "OpenNTN.C23_departure_direction"
   ],
   "note": ""
  },
  {
   "property": "C24",
   "status": "partial",
   "theorems": [
    "OpenNTN.C24_arrival_direction_partial",
    "OpenNTN.C24_violated"
   ],
   "note": "The reported arrival direction has the right vertical part and a reversed horizontal part, so it is right exactly if the BS is straight above or below the UT: exact characterisation and negation proved."
  },
  {
   "property": "C25",
   "status": "proved",
   "theorems": [
    "OpenNTN.C25_indoor_split"
   ],
   "note": ""
  },
  {
   "property": "C52",
   "status": "proved",
   "theorems": [
    "OpenNTN.C52_step12_gain"
   ],
   "note": ""
  },
  {
   "property": "C53",
   "status": "partial",
   "theorems": [
    "OpenNTN.C53_shadow_fading_disabled_partial",
    "OpenNTN.C53_violated"
   ],
   "note": "The basic path loss always contains a shadow fading draw: negation proved for every configuration with path loss enabled."
  },
  {
   "property": "C54",
   "status": "partial",
   "theorems": [
    "OpenNTN.C54_shadow_fading_partial",
    "OpenNTN.C54_violated"
   ],
   "note": "The deviation has twice the variance of the table with path loss enabled: law proved, negation proved."
  },
  {
   "property": "C55",
   "status": "proved",
   "theorems": [
    "OpenNTN.C55_basic_pathloss"
   ],
   "note": ""
  },
  {
   "property": "C56",
   "status": "partial",
   "theorems": [
    "OpenNTN.C56_losses_partial",
    "OpenNTN.C56_threshold",
    "OpenNTN.C56_violated"
   ],
   "note": "Gas, entry loss and sum for all atmospheres. The scintillation loss is a number if and only if the quantity 1.22 D_eff^2 f L^-1 is at most one threshold between 6.9 and 7.1 (C56_threshold); for larger antennas it is NaN, where ITU-R P.618 names no scintillation: negation proved."
  },
  {
   "property": "C57",
   "status": "partial",
   "theorems": [
    "OpenNTN.C57_path_length_partial",
    "OpenNTN.C57_violated"
   ],
   "note": "The code puts the sine inside the root: exact comparison proved for all elevations, negation proved."
  },
  {
   "property": "C10",
   "status": "partial",
   "theorems": [
    "OpenNTN.C10_arguments_persist_partial",
    "OpenNTN.C10_violated"
   ],
   "note": "Proved for calls that get past the assertions, hence for one BS and physical atmospheres in full; a call that fails later (two BSs) keeps what it stored: negation proved."
  },
  {
   "property": "C11",
   "status": "partial",
   "theorems": [
    "OpenNTN.C11_assertion_partial",
    "OpenNTN.C11_violated"
   ],
   "note": "Same restriction as C10; negation proved with two BSs."
  },
  {
   "property": "C12",
   "status": "partial",
   "theorems": [
    "OpenNTN.C12_derived_fresh_partial",
    "OpenNTN.C12_violated"
   ],
   "note": "In full for one BS; with two BSs a successful empty call follows a failed one: negation proved."
  },
  {
   "property": "C13",
   "status": "partial",
   "theorems": [
    "OpenNTN.C13_atmosphere_partial",
    "OpenNTN.C13_violated"
   ],
   "note": "Omitted parameters are reset to standard values: negation proved."
  },
  {
   "property": "C14",
   "status": "partial",
   "theorems": [
    "OpenNTN.C14_atmosphere_fresh_partial",
    "OpenNTN.C14_violated"
   ],
   "note": "Only relocating calls recompute the losses: negation proved."
  },
  {
   "property": "C15",
   "status": "proved",
   "theorems": [
    "OpenNTN.C15_los_state"
   ],
   "note": ""
  },
  {
   "property": "C22",
   "status": "partial",
   "theorems": [
    "OpenNTN.C22_altitude_partial",
    "OpenNTN.C22_violated"
   ],
   "note": "The altitude of batch example 0 is used for all: negation proved."
  },
  {
   "property": "C16",
   "status": "proved",
   "theorems": [
    "OpenNTN.C16_lsp_frozen"
   ],
   "note": ""
  },
  {
   "property": "C17",
   "status": "proved",
   "theorems": [
    "OpenNTN.C17_lsp_fresh"
   ],
   "note": ""
  },
  {
   "property": "C18",
   "status": "partial",
   "theorems": [
    "OpenNTN.C18_generation_possible_partial",
    "OpenNTN.C18_violated"
   ],
   "note": "Proved for one BS and UTs at different planar positions; with two BSs an empty call succeeds after a failed one and generation then fails: negation proved."
  },
  {
   "property": "C19",
   "status": "partial",
   "theorems": [
    "OpenNTN.C19_standard_atmosphere_partial",
    "OpenNTN.C19_violated"
   ],
   "note": "The channel model does not pass the atmosphere on: only the standard atmosphere is reachable, negation proved."
  },
  {
   "property": "C31",
   "status": "proved",
   "theorems": [
    "OpenNTN.C31_active_clusters"
   ],
   "note": ""
  },
  {
   "property": "C32",
   "status": "partial",
   "theorems": [
    "OpenNTN.C32_delays_partial",
    "OpenNTN.C32_threshold",
    "OpenNTN.C32_violated"
   ],
   "note": "Proved for NLoS links and K-factors of at least -60 dB; the LoS scaling polynomial is negative below one threshold between -63.4 and -63.3 dB, above which the claim holds and up to which it fails (exact): negation proved."
  },
  {
   "property": "C33",
   "status": "proved",
   "theorems": [
    "OpenNTN.C33_inactive_last"
   ],
   "note": ""
  },
  {
   "property": "C34",
   "status": "proved",
   "theorems": [
    "OpenNTN.C34_powers"
   ],
   "note": ""
  },
  {
   "property": "C35",
   "status": "partial",
   "theorems": [
    "OpenNTN.C35_outdoor_partial",
    "OpenNTN.C35_violated"
   ],
   "note": "Indoor UTs have no active cluster, so the normalisation is 0/0 in every configuration: negation proved."
  },
  {
   "property": "C36",
   "status": "proved",
   "theorems": [
    "OpenNTN.C36_first_cluster",
    "OpenNTN.raysCall_defined"
   ],
   "note": ""
  },
  {
   "property": "C37",
   "status": "proved",
   "theorems": [
    "OpenNTN.C37_normalised"
   ],
   "note": ""
  },
  {
   "property": "C38",
   "status": "proved",
   "theorems": [
    "OpenNTN.C38_coupling"
   ],
   "note": ""
  },
  {
   "property": "C39",
   "status": "partial",
   "theorems": [
    "OpenNTN.C39_offsets_partial",
    "OpenNTN.C39_violated"
   ],
   "note": "One of the ten pairs is not opposite (1.1481, -0.1481): negation proved, resulting bias computed."
  },
  {
   "property": "C40",
   "status": "proved",
   "theorems": [
    "OpenNTN.C40_xpr"
   ],
   "note": ""
  },
  {
   "property": "C41",
   "status": "partial",
   "theorems": [
    "OpenNTN.C41_departure_partial",
    "OpenNTN.C41_violated"
   ],
   "note": "The code looks at the height of the first BS of the first batch example only: negation proved for a batch of two."
  },
  {
   "property": "C42",
   "status": "proved",
   "theorems": [
    "OpenNTN.C42_rotation"
   ],
   "note": ""
  },
  {
   "property": "C43",
   "status": "proved",
   "theorems": [
    "OpenNTN.C43_angles"
   ],
   "note": ""
  },
  {
   "property": "C44",
   "status": "proved",
   "theorems": [
    "OpenNTN.C44_field"
   ],
   "note": ""
  },
  {
   "property": "C45",
   "status": "proved",
   "theorems": [
    "OpenNTN.C45_phases"
   ],
   "note": ""
  },
  {
   "property": "C46",
   "status": "proved",
   "theorems": [
    "OpenNTN.C46_rays_once"
   ],
   "note": ""
  },
  {
   "property": "C47",
   "status": "proved",
   "theorems": [
    "OpenNTN.C47_paths",
    "OpenNTN.C47_first_delay"
   ],
   "note": ""
  },
  {
   "property": "C48",
   "status": "proved",
   "theorems": [
    "OpenNTN.C48_kfactor"
   ],
   "note": ""
  },
  {
   "property": "C49",
   "status": "proved",
   "theorems": [
    "OpenNTN.C49_satellite_doppler"
   ],
   "note": ""
  },
  {
   "property": "C50",
   "status": "proved",
   "theorems": [
    "OpenNTN.C50_reciprocity",
    "OpenNTN.C50_reciprocal"
   ],
   "note": ""
  },
  {
   "property": "C51",
   "status": "proved",
   "theorems": [
    "OpenNTN.C51_axes"
   ],
   "note": ""
  },
  {
   "property": "C58",
   "status": "proved",
   "theorems": [
    "OpenNTN.C58_geometry"
   ],
   "note": ""
  },
  {
   "property": "C59",
   "status": "proved",
   "theorems": [
    "OpenNTN.C59_distinct"
   ],
   "note": ""
  },
  {
   "property": "C60",
   "status": "proved",
   "theorems": [
    "OpenNTN.C60_partition"
   ],
   "note": ""
  },
  {
   "property": "C61",
   "status": "proved",
   "theorems": [
    "OpenNTN.C61_patterns"
   ],
   "note": ""
  },
  {
   "property": "C62",
   "status": "partial",
   "theorems": [
    "OpenNTN.C62_slants_partial",
    "OpenNTN.C62_violated"
   ],
   "note": "Line 527 compares polarization instead of polarization_type with VH, so VH yields slants of -45 and 45 degrees: negation proved; everything else proved."
  },
  {
   "property": "C75",
   "status": "proved",
   "theorems": [
    "OpenNTN.C75_kepler"
   ],
   "note": ""
  },
  {
   "property": "C82",
   "status": "proved",
   "theorems": [
    "OpenNTN.C82_finite"
   ],
   "note": ""
  },
  {
   "property": "C63",
   "status": "proved",
   "theorems": [
    "OpenNTN.C63_subcarriers"
   ],
   "note": ""
  },
  {
   "property": "C64",
   "status": "proved",
   "theorems": [
    "OpenNTN.C64_frequency_response"
   ],
   "note": ""
  },
  {
   "property": "C65",
   "status": "proved",
   "theorems": [
    "OpenNTN.C65_taps"
   ],
   "note": ""
  },
  {
   "property": "C66",
   "status": "proved",
   "theorems": [
    "OpenNTN.C66_taps_to_ofdm"
   ],
   "note": ""
  },
  {
   "property": "C67",
   "status": "proved",
   "theorems": [
    "OpenNTN.C67_tap_range"
   ],
   "note": ""
  },
  {
   "property": "C83",
   "status": "proved",
   "theorems": [
    "OpenNTN.C83_time_frequency"
   ],
   "note": ""
  },
  {
   "property": "C84",
   "status": "proved",
   "theorems": [
    "OpenNTN.C84_agreement"
   ],
   "note": ""
  },
  {
   "property": "C68",
   "status": "proved",
   "theorems": [
    "OpenNTN.C68_elevation"
   ],
   "note": ""
  },
  {
   "property": "C69",
   "status": "partial",
   "theorems": [
    "OpenNTN.C69_boresight_partial",
    "OpenNTN.C69_violated"
   ],
   "note": "arctan(y/x) ignores the quadrant: a UT with negative x looks in the opposite horizontal direction; negation proved."
  },
  {
   "property": "C70",
   "status": "proved",
   "theorems": [
    "OpenNTN.C70_accepted"
   ],
   "note": ""
  },
  {
   "property": "C71",
   "status": "partial",
   "theorems": [
    "OpenNTN.C71_outdoor_partial",
    "OpenNTN.C71_violated"
   ],
   "note": "The probability is overwritten by 0 before use: negation proved."
  },
  {
   "property": "C72",
   "status": "partial",
   "theorems": [
    "OpenNTN.C72_raises_partial",
    "OpenNTN.C72_violated"
   ],
   "note": "The function refers to an undefined name and raises for all arguments: negation and the exact error proved."
  },
  {
   "property": "C73",
   "status": "proved",
   "theorems": [
    "OpenNTN.C73_defaults"
   ],
   "note": ""
  },
  {
   "property": "C74",
   "status": "proved",
   "theorems": [
    "OpenNTN.C74_rigid"
   ],
   "note": ""
  },
  {
   "property": "C85",
   "status": "proved",
   "theorems": [
    "OpenNTN.C85_bs_faces_down"
   ],
   "note": ""
  },
  {
   "property": "C76",
   "status": "proved",
   "theorems": [
    "OpenNTN.C76_exponential"
   ],
   "note": ""
  },
  {
   "property": "C77",
   "status": "proved",
   "theorems": [
    "OpenNTN.C77_one_ring"
   ],
   "note": ""
  },
  {
   "property": "C78",
   "status": "proved",
   "theorems": [
    "OpenNTN.C78_normalised"
   ],
   "note": ""
  },
  {
   "property": "C79",
   "status": "partial",
   "theorems": [
    "OpenNTN.C79_names_partial",
    "OpenNTN.C79_violated"
   ],
   "note": "The accepted name \"E\" leads to a NameError: negation proved. All other names proved."
  },
  {
   "property": "C80",
   "status": "partial",
   "theorems": [
    "OpenNTN.C80_call_partial",
    "OpenNTN.C80_violated"
   ],
   "note": "The call never succeeds: the topology is built without three required arguments. Negation proved, construction proved."
  },
  {
   "property": "C81",
   "status": "partial",
   "theorems": [
    "OpenNTN.C81_additive_partial",
    "OpenNTN.C81_violated",
    "OpenNTN.C81_idempotent",
    "OpenNTN.C81_windows"
   ],
   "note": "If the old import is the last line and lacks a newline the new import is glued to it: negation proved; idempotence proved for all contents; files with Windows line ends are covered too."
  },
  {
   "property": "C86",
   "status": "partial",
   "theorems": [
    "OpenNTN.C86_covariance_partial",
    "OpenNTN.C86_violated"
   ],
   "note": "The Cholesky factor of the transmit side is multiplied without transposition: negation proved, exact covariance proved."
  },
  {
   "property": "C87",
   "status": "proved",
   "theorems": [
    "OpenNTN.C87_average_power"
   ],
   "note": ""
  },
  {
   "property": "C88",
   "status": "partial",
   "theorems": [
    "OpenNTN.C88_doppler_partial",
    "OpenNTN.C88_violated"
   ],
   "note": "Satellite part too small by the factor 7200 pi: negation and exact value proved."
  },
  {
   "property": "C89",
   "status": "proved",
   "theorems": [
    "OpenNTN.C89_delays"
   ],
   "note": ""
  },
  {
   "property": "C90",
   "status": "proved",
   "theorems": [
    "OpenNTN.C90_normalised"
   ],
   "note": ""
  },
  {
   "property": "C91",
   "status": "proved",
   "theorems": [
    "OpenNTN.C91_angles"
   ],
   "note": ""
  },
  {
   "property": "C92",
   "status": "proved",
   "theorems": [
    "OpenNTN.C92_azimuth"
   ],
   "note": ""
  },
  {
   "property": "C93",
   "status": "proved",
   "theorems": [
    "OpenNTN.C93_zenith",
    "OpenNTN.C93_indoor"
   ],
   "note": ""
  },
  {
   "property": "C94",
   "status": "partial",
   "theorems": [
    "OpenNTN.C94_shared_partial",
    "OpenNTN.C94_violated"
   ],
   "note": "Signs and coupling draws have a singleton UT axis and are shared by all UTs of a BS: negation proved."
  },
  {
   "property": "C95",
   "status": "partial",
   "theorems": [
    "OpenNTN.C95_offset_partial",
    "OpenNTN.C95_violated"
   ],
   "note": "The offset is computed in radian and added to degrees: negation and a bound on the error proved."
  },
  {
   "property": "C96",
   "status": "partial",
   "theorems": [
    "OpenNTN.C96_gas_partial",
    "OpenNTN.C96_violated"
   ],
   "note": "The equivalent height of water vapour uses 8.1 and 1.5 instead of 8.6 and 1.58: negation proved; everything else exact, loss within 8 % proved."
  },
  {
   "property": "C97",
   "status": "partial",
   "theorems": [
    "OpenNTN.C97_scintillation_partial",
    "OpenNTN.C97_violated"
   ],
   "note": "NaN for large antennas, another effective path length (C57) and 273 instead of 273.15 K: negation proved, exact value proved."
  },
  {
   "property": "C98",
   "status": "proved",
   "theorems": [
    "OpenNTN.C98_shape"
   ],
   "note": ""
  },
  {
   "property": "C99",
   "status": "partial",
   "theorems": [
    "OpenNTN.C99_gain_partial",
    "OpenNTN.C99_violated"
   ],
   "note": "The grid counts azimuths -180 and 180 degrees twice, so the directivity of an isotropic element is reported negative: negation and a bound of 0.014 dB proved; gains exact."
  },
  {
   "property": "C100",
   "status": "proved",
   "theorems": [
    "OpenNTN.C100_average",
    "OpenNTN.C100_passive"
   ],
   "note": ""
  },
  {
   "property": "C101",
   "status": "partial",
   "theorems": [
    "OpenNTN.C101_doppler_partial",
    "OpenNTN.C101_violated"
   ],
   "note": "The factor R/(R+h) of TR 38.811 6.9.2 is missing: negation proved; the range rate is exactly (R+h)/R times a possible one."
  },
  {
   "property": "C102",
   "status": "proved",
   "theorems": [
    "OpenNTN.C102_penetration"
   ],
   "note": ""
  },
  {
   "property": "C103",
   "status": "partial",
   "theorems": [
    "OpenNTN.C103_helper_partial",
    "OpenNTN.C103_violated"
   ],
   "note": "The function has no return statement and returns None: negation proved; the expression it computes is the largest shift."
  },
  {
   "property": "C104",
   "status": "proved",
   "theorems": [
    "OpenNTN.C104_distributions"
   ],
   "note": "Nine cells of the test suite differ from the parameter files by less than its tolerance; they are listed in the definition `differing` (Lemmas/Standard.lean) and the bound 0.1 is proved for them."
  },
  {
   "property": "C105",
   "status": "proved",
   "theorems": [
    "OpenNTN.C105_cross_correlations"
   ],
   "note": ""
  },
  {
   "property": "C106",
   "status": "proved",
   "theorems": [
    "OpenNTN.C106_correlation_distances"
   ],
   "note": ""
  },
  {
   "property": "C107",
   "status": "proved",
   "theorems": [
    "OpenNTN.C107_los_probability"
   ],
   "note": ""
  },
  {
   "property": "C108",
   "status": "proved",
   "theorems": [
    "OpenNTN.C108_clutter_shadow"
   ],
   "note": ""
  },
  {
   "property": "C109",
   "status": "proved",
   "theorems": [
    "OpenNTN.C109_delay_scaling"
   ],
   "note": ""
  },
  {
   "property": "C110",
   "status": "proved",
   "theorems": [
    "OpenNTN.C110_directions"
   ],
   "note": ""
  },
  {
   "property": "C111",
   "status": "proved",
   "theorems": [
    "OpenNTN.C111_constructor"
   ],
   "note": ""
  },
  {
   "property": "C112",
   "status": "proved",
   "theorems": [
    "OpenNTN.C112_default_spacing",
    "OpenNTN.C112_derived_classes"
   ],
   "note": ""
  },
  {
   "property": "C113",
   "status": "proved",
   "theorems": [
    "OpenNTN.C113_autocorrelation"
   ],
   "note": ""
  },
  {
   "property": "C114",
   "status": "proved",
   "theorems": [
    "OpenNTN.C114_uncorrelated"
   ],
   "note": ""
  },
  {
   "property": "C115",
   "status": "proved",
   "theorems": [
    "OpenNTN.C115_orientation"
   ],
   "note": ""
  },
  {
   "property": "C116",
   "status": "proved",
   "theorems": [
    "OpenNTN.C116_ray"
   ],
   "note": ""
  },
  {
   "property": "C117",
   "status": "partial",
   "theorems": [
    "OpenNTN.C117_los_partial",
    "OpenNTN.C117_violated"
   ],
   "note": "Code violates the full claim, proved as C117_violated: channel_coefficients.py 1037-1042 turns the LoS coefficient by +2 pi d / lambda, TR 38.901 equation 7.5-29 by -2 pi d / lambda. All other factors agree."
  },
  {
   "property": "C118",
   "status": "proved",
   "theorems": [
    "OpenNTN.C118_link_budget"
   ],
   "note": ""
  },
  {
   "property": "C119",
   "status": "proved",
   "theorems": [
    "OpenNTN.C119_elevation"
   ],
   "note": ""
  },
  {
   "property": "C120",
   "status": "proved",
   "theorems": [
    "OpenNTN.C120_doppler_switch",
    "OpenNTN.C120_switched_off",
    "OpenNTN.C120_common_shift"
   ],
   "note": ""
  },
  {
   "property": "C121",
   "status": "proved",
   "theorems": [
    "OpenNTN.C121_sampling"
   ],
   "note": ""
  },
  {
   "property": "C122",
   "status": "partial",
   "theorems": [
    "OpenNTN.C122_batch_partial",
    "OpenNTN.C122_violated"
   ],
   "note": "the slant range, the treatment of satellites and the satellite speed of all examples are those of the altitude in the first example (system_level_scenario.py 811, rays.py 434, system_level_channel.py 212); the theorem holds for selections whose first example has the altitude of the first example of the batch"
  },
  {
   "property": "C123",
   "status": "proved",
   "theorems": [
    "OpenNTN.C123_displacement"
   ],
   "note": ""
  },
  {
   "property": "C124",
   "status": "proved",
   "theorems": [
    "OpenNTN.C124_heading"
   ],
   "note": ""
  },
  {
   "property": "C125",
   "status": "proved",
   "theorems": [
    "OpenNTN.C125_scene"
   ],
   "note": ""
  },
  {
   "property": "C126",
   "status": "proved",
   "theorems": [
    "OpenNTN.C126_forgets",
    "OpenNTN.C126_scenario_forgets"
   ],
   "note": ""
  },
  {
   "property": "C127",
   "status": "partial",
   "theorems": [
    "OpenNTN.C127_attributes_partial",
    "OpenNTN.C127_arguments",
    "OpenNTN.C127_spatial_correlation",
    "OpenNTN.C127_slant",
    "OpenNTN.C127_violated"
   ],
   "note": "additional_pathloss raises AttributeError in every state: `_pl_a` is only written by compute_pathloss_additional, whose call is commented out (system_level_scenario.py 663). All other attributes are proved readable and current."
  },
  {
   "property": "C128",
   "status": "proved",
   "theorems": [
    "OpenNTN.C128_cloud"
   ],
   "note": ""
  },
  {
   "property": "C129",
   "status": "partial",
   "theorems": [
    "OpenNTN.C129_specific_partial",
    "OpenNTN.C129_violated"
   ],
   "note": "compute_pathloss_additional ignores the rain rate passed to set_topology: utils.py 1920 uses the constant 40. With that constant the coefficients are proved to be those of P.838 at every frequency and elevation."
  },
  {
   "property": "C130",
   "status": "partial",
   "theorems": [
    "OpenNTN.C130_additional_partial",
    "OpenNTN.C130_never",
    "OpenNTN.C130_violated"
   ],
   "note": "The station height in the downlink is the satellite altitude in metres, far above the rain height in kilometres, so math.sqrt gets a negative number; batches of several examples raise a type error. In the uplink the horizontal path is divided by 1000 although it is already in kilometres (utils.py 1828), and the computation works only under the inequality stated in the theorem. This inequality holds nowhere in the two accepted frequency bands, proved with bounds of the ITU curves on nine intervals (C130_never): below 90 degrees elevation and at latitudes from -90 to 89 degrees the loss can be computed in no configuration."
  },
  {
   "property": "C131",
   "status": "proved",
   "theorems": [
    "OpenNTN.C131_attributes"
   ],
   "note": ""
  },
  {
   "property": "C132",
   "status": "proved",
   "theorems": [
    "OpenNTN.C132_tdl_profiles"
   ],
   "note": "The profiles in Spec/Profiles.lean were recalled, no copy of the standards was at hand; they agree with the files."
  },
  {
   "property": "C133",
   "status": "proved",
   "theorems": [
    "OpenNTN.C133_cdl_profiles"
   ],
   "note": "Angles, spreads and ratios were read off the files; the cluster angles at the terminal are not compared with the standard."
  },
  {
   "property": "C134",
   "status": "proved",
   "theorems": [
    "OpenNTN.C134_almost_surely_finite",
    "OpenNTN.C134_almost_surely_finite_frozen"
   ],
   "note": ""
  },
  {
   "property": "C135",
   "status": "proved",
   "theorems": [
    "OpenNTN.C135_last_uts_removed"
   ],
   "note": ""
  },
  {
   "property": "C136",
   "status": "partial",
   "theorems": [
    "OpenNTN.C136_each_parameter_partial",
    "OpenNTN.C136_violated"
   ],
   "note": "Proved: for each parameter, its values for any selection of UTs in any order have the same joint law as if only those were simulated in that order. Full claim proved false: the cross-correlation is applied before the spatial one with factors per parameter (lsp.py 132-142), so the correlation of delay spread and K-factor of a UT depends on whether another UT nearby has a lower number (same cause as C27)."
  },
  {
   "property": "C137",
   "status": "partial",
   "theorems": [
    "OpenNTN.C137_single_partial",
    "OpenNTN.C137_double",
    "OpenNTN.C137_violated"
   ],
   "note": "Violated: in double precision `gen_single_sector_topology` fails for all arguments (a draw without element type gets a float64 bound, zeros without element type are added to float64), `set_topology` fails (`tf.math.sin` of a Python number is float32 and is added to the float64 height), the TDL constructor fails (`tf.math.sqrt` of a Python number is multiplied with the float64 carrier frequency) and the aperture pattern fails (constants cast to float32). Single precision works. Proved: the negation, the exact behaviour in double precision and the claim for single precision."
  },
  {
   "property": "C138",
   "status": "proved",
   "theorems": [
    "OpenNTN.C138_los_law"
   ],
   "note": ""
  },
  {
   "property": "C139",
   "status": "proved",
   "theorems": [
    "OpenNTN.C139_pathloss_law"
   ],
   "note": ""
  },
  {
   "property": "C140",
   "status": "proved",
   "theorems": [
    "OpenNTN.C140_second_order"
   ],
   "note": ""
  },
  {
   "property": "C141",
   "status": "proved",
   "theorems": [
    "OpenNTN.C141_frequency_correlation"
   ],
   "note": ""
  },
  {
   "property": "C142",
   "status": "proved",
   "theorems": [
    "OpenNTN.C142_plain"
   ],
   "note": ""
  },
  {
   "property": "C143",
   "status": "partial",
   "theorems": [
    "OpenNTN.C143_call_partial",
    "OpenNTN.C143_violated",
    "OpenNTN.C143_violated_transmit",
    "OpenNTN.C143_violated_specular"
   ],
   "note": "Violated in two ways. The transmit factor is multiplied from the right without transposition, so with a transmit correlation of 0.6 the first antenna gets 1.36 times its power. The specular component of LoS models is the same for all antennas before the multiplication with the factor, so with a receive correlation of 0.6 the specular power of the second antenna of model D is 1.96 times too large. Proved: the call always succeeds with the reported delays; mean powers are right without matrices, and with a joint or receive matrix for all taps without specular component; the scattered part then has the requested covariance."
  },
  {
   "property": "C144",
   "status": "proved",
   "theorems": [
    "OpenNTN.C144_cluster_law"
   ],
   "note": ""
  },
  {
   "property": "C145",
   "status": "partial",
   "theorems": [
    "OpenNTN.C145_drop_partial",
    "OpenNTN.C145_violated"
   ],
   "note": "Violated: the centre of the drop is drawn with shape [1], once for the whole batch (utils.py 584), so UTs of different batch examples are always within one inter-site distance of each other in both coordinates. With the defaults of the dense urban scenario the first coordinates of two UTs of different examples are not independent. Proved: relative to the centre all UTs of all examples are independent and uniform in a square, heights, speeds and headings have the configured laws, and the generation succeeds almost surely."
  },
  {
   "property": "C146",
   "status": "proved",
   "theorems": [
    "OpenNTN.C146_coupling_law"
   ],
   "note": "That all UTs of a BS share the couplings is C94."
  },
  {
   "property": "C147",
   "status": "partial",
   "theorems": [
    "OpenNTN.C147_phase_partial",
    "OpenNTN.C147_violated",
    "OpenNTN.C147_model"
   ],
   "note": "The code violates the claim in single precision, the default: at 2 GHz and a path of 786.432 km the phase is off by 2.15 rad (C147_violated); with growing phase only multiples of ever larger steps are representable, from 2^27 rad on (Ka band LEO) multiples of 16 rad. Proved instead: relative error of eight units, hence the claim in double precision, and in single precision up to 165 000 wavelengths. The carrier frequency reaches the generator as a tensor (system level) or a Python number (CDL); both are covered."
  },
  {
   "property": "C148",
   "status": "partial",
   "theorems": [
    "OpenNTN.C148_phase_partial",
    "OpenNTN.C148_violated",
    "OpenNTN.C148_model"
   ],
   "note": "The code violates the claim in single precision, the default: at 20 GHz and 4096 m/s the phase is off by 1.58 rad after ten seconds (C148_violated). Proved instead: an error of 14 units of the total rotation, hence the claim in double precision, and in single precision up to 119 000 rad."
  },
  {
   "property": "C149",
   "status": "proved",
   "theorems": [
    "OpenNTN.C149_distance",
    "OpenNTN.C149_loss",
    "OpenNTN.C149_model"
   ],
   "note": "Assumes the stated accuracy of sine and logarithm of the library, and that squares are rounded products."
  },
  {
   "property": "C150",
   "status": "proved",
   "theorems": [
    "OpenNTN.C150_shapes"
   ],
   "note": ""
  },
  {
   "property": "C151",
   "status": "partial",
   "theorems": [
    "OpenNTN.C151_violated",
    "OpenNTN.C151_accepted_partial",
    "OpenNTN.C151_large_partial"
   ],
   "note": "The code violates it (C151_violated): tensors with a single example or UT are repeated. After a scene with one UT, set_topology(ut_loc=...) with three UTs alone is accepted and a channel for three UTs is generated, all with the orientation, velocity and indoor state of the one. Proved instead: exactly which sizes are accepted by set_topology and by the generation, that the result is for the number of UTs of the locations, and that only equal sizes are accepted if none of them is 1. Orientations and velocities of wrong sizes are not noticed by set_topology but by the generation."
  },
  {
   "property": "C152",
   "status": "proved",
   "theorems": [
    "OpenNTN.C152_direction_law"
   ],
   "note": ""
  },
  {
   "property": "C153",
   "status": "proved",
   "theorems": [
    "OpenNTN.C153_energy",
    "OpenNTN.C153_normalised"
   ],
   "note": ""
  },
  {
   "property": "C154",
   "status": "proved",
   "theorems": [
    "OpenNTN.C154_pipeline",
    "OpenNTN.C154_delays",
    "OpenNTN.C154_tdl"
   ],
   "note": ""
  },
  {
   "property": "C155",
   "status": "proved",
   "theorems": [
    "OpenNTN.C155_joint_law"
   ],
   "note": ""
  },
  {
   "property": "C156",
   "status": "partial",
   "theorems": [
    "OpenNTN.C156_accepted_partial",
    "OpenNTN.C156_violated"
   ],
   "note": "Only the lower triangle and the real parts of the diagonal are read, so a matrix that is not Hermitian is accepted and used as if its upper triangle were the conjugate of the lower one (0.6 below and 2 above the diagonal act like 0.6). Among Hermitian matrices exactly the positive definite ones are accepted; ones on the diagonal are not required."
  },
  {
   "property": "C157",
   "status": "partial",
   "theorems": [
    "OpenNTN.C157_others_partial",
    "OpenNTN.C157_violated"
   ],
   "note": "proved for every argument but the height: integers, floats, tensors and omissions may be mixed. An integer `bs_height` such as 600000 is always rejected, because `tf.fill` and `tf.math.square` make it an int32 tensor that is combined with floats (utils.py 1164, 586). Missing: that case, which is false"
  },
  {
   "property": "C158",
   "status": "proved",
   "theorems": [
    "OpenNTN.C158_entry_types",
    "OpenNTN.C158_whole",
    "OpenNTN.C158_cast_needed",
    "OpenNTN.C158_sides"
   ],
   "note": "C158_cast_needed shows that without the conversion in `get_param` one scenario would fail"
  },
  {
   "property": "C159",
   "status": "proved",
   "theorems": [
    "OpenNTN.C159_axes"
   ],
   "note": ""
  },
  {
   "property": "C160",
   "status": "partial",
   "theorems": [
    "OpenNTN.C160_scale_partial",
    "OpenNTN.C160_violated"
   ],
   "note": "Violated (C160_violated): BSs and UTs are scaled separately, so with UTs near the origin and a BS at 600 km the UTs are drawn in metres and the BS in kilometres; the axes x and y are labelled with the unit of the UTs and the axis z with that of the BSs. Proved: to scale if and only if UTs and BSs alike exceed 10 km or both do not; always each group in a unit of its own, which is the one written at x and y (UTs) or z (BSs)."
  },
  {
   "property": "C161",
   "status": "partial",
   "theorems": [
    "OpenNTN.C161_groups_partial",
    "OpenNTN.C161_violated"
   ],
   "note": "Violated (C161_violated): the points of indoor UTs are commented out, only their indices and axes are drawn. Proved: the call succeeds, BSs and outdoor UTs are shown exactly once and in the right group."
  },
  {
   "property": "C162",
   "status": "partial",
   "theorems": [
    "OpenNTN.C162_drawn_partial",
    "OpenNTN.C162_violated"
   ],
   "note": "Violated (C162_violated) for polarization type \"VH\": the elements are built with slants of -45 and 45 degrees (C62) and drawn as horizontal and vertical lines; even with the documented slants the two lines would be exchanged. Proved: drawn faithfully for \"V\", \"H\" and \"cross\"; places and numbers always."
  },
  {
   "property": "C163",
   "status": "proved",
   "theorems": [
    "OpenNTN.C163_window",
    "OpenNTN.C163_default"
   ],
   "note": ""
  },
  {
   "property": "C164",
   "status": "partial",
   "theorems": [
    "OpenNTN.C164_shown_partial",
    "OpenNTN.C164_violated"
   ],
   "note": "The two cuts are right. The surface uses 100 angles on both axes, so that boresight (zenith angle 90 degrees, azimuth 0) is never drawn: for the aperture antenna no point drawn has more than 81 per cent of the largest gain. Line 112 calls tf.math.log(a, 10), whose second argument is a name: the surface of the aperture antenna is 50 plus the natural logarithm of the gain while the axis says dB."
  },
  {
   "property": "C165",
   "status": "proved",
   "theorems": [
    "OpenNTN.C165_panel"
   ],
   "note": ""
  },
  {
   "property": "C166",
   "status": "partial",
   "theorems": [
    "OpenNTN.C166_azimuth_partial",
    "OpenNTN.C166_violated"
   ],
   "note": "Line 587 draws the x coordinate uniformly, not the angle: the azimuth is at most t with probability 1 - cos t, so that half of the drops lie in the last 30 of 90 degrees. The docstring says that UTs are sampled uniformly from a sector."
  },
  {
   "property": "C167",
   "status": "proved",
   "theorems": [
    "OpenNTN.C167_link",
    "OpenNTN.C167_links"
   ],
   "note": "independence is given the rays and large-scale parameters, which are correlated between links (C28, C94)"
  },
  {
   "property": "C168",
   "status": "partial",
   "theorems": [
    "OpenNTN.C168_match_partial",
    "OpenNTN.C168_model",
    "OpenNTN.C168_violated"
   ],
   "note": "The comparison is of rounded wavelengths. Equal frequencies always pass and frequencies that pass agree up to 7 units of rounding (4.2e-7 relative in single precision, 7.8e-16 in double precision), but different frequencies can pass: in single precision a scenario at 2 GHz accepts arrays for 2 GHz + 1 Hz (C168_violated)."
  },
  {
   "property": "C169",
   "status": "proved",
   "theorems": [
    "OpenNTN.C169_moment",
    "OpenNTN.C169_limit"
   ],
   "note": ""
  },
  {
   "property": "C170",
   "status": "proved",
   "theorems": [
    "OpenNTN.C170_fading"
   ],
   "note": ""
  },
  {
   "property": "C171",
   "status": "proved",
   "theorems": [
    "OpenNTN.C171_imports"
   ],
   "note": "Sionna itself is abstracted to the set of names it has when Python reaches the inserted line, and is complete afterwards"
  },
  {
   "property": "C172",
   "status": "partial",
   "theorems": [
    "OpenNTN.C172_copies_partial",
    "OpenNTN.C172_violated"
   ],
   "note": "The link makes Python load the files twice, as OpenNTN and as sionna.phy.channel.tr38811, with separate classes. A scenario accepts exactly the arrays of its own copy (isinstance, system_level_scenario.py 92-95), so that scenarios of one name with arrays of the other fail an assertion."
  },
  {
   "property": "C173",
   "status": "partial",
   "theorems": [
    "OpenNTN.C173_link_partial",
    "OpenNTN.C173_violated"
   ],
   "note": "Modules import from sionna.phy.channel.tr38811 by absolute name, so without the link nothing of the package can be imported; with the inserted line and no link not even Sionna can."
  },
  {
   "property": "C174",
   "status": "partial",
   "theorems": [
    "OpenNTN.C174_location_partial",
    "OpenNTN.C174_violated"
   ],
   "note": "install.sh 17-18 cut the location at its first space. In a directory without spaces the installation works (given the names of C171). With a space in the directory of Sionna no link is made, but the line is inserted, so that Sionna itself can no longer be imported."
  },
  {
   "property": "C175",
   "status": "partial",
   "theorems": [
    "OpenNTN.C175_runs_partial",
    "OpenNTN.C175_violated",
    "OpenNTN.C175_violated_files"
   ],
   "note": "ln -s follows the link of the first run, so the second run makes a link named OpenNTN to the package inside the package; later runs change nothing. A file named post_install.py in the working directory is overwritten and deleted."
  },
  {
   "property": "C176",
   "status": "partial",
   "theorems": [
    "OpenNTN.C176_slant_partial",
    "OpenNTN.C176_violated"
   ],
   "note": "The slant range is computed on a sphere and the positions are in a plane. Exact relation proved: (D-d)(D+d+2R sin el) = rho^2 - z(2R+2H-z) for distance D, slant range d, horizontal distance rho. For a UT at height zero d is at most D, with equality at the zenith only."
  },
  {
   "property": "C177",
   "status": "partial",
   "theorems": [
    "OpenNTN.C177_elevation_partial",
    "OpenNTN.C177_violated"
   ],
   "note": "set_topology does not check the elevation, so UTs below the satellite are accepted by a scenario for 50 degrees. For scenes generated for the elevation of the scenario the reported direction has this elevation up to the size of the cell."
  },
  {
   "property": "C178",
   "status": "partial",
   "theorems": [
    "OpenNTN.C178_nadir_partial",
    "OpenNTN.C178_violated"
   ],
   "note": "The direction at the satellite is that of a plane: nadir angle 90 degrees minus elevation. The angle in the triangle of the slant range is smaller, unless the satellite is in the zenith."
  },
  {
   "property": "C179",
   "status": "partial",
   "theorems": [
    "OpenNTN.C179_single_partial",
    "OpenNTN.C179_double",
    "OpenNTN.C179_violated"
   ],
   "note": "In single precision a call works exactly when orientations and velocities are float32 and the sampling frequency is a Python number or float32; set_topology does not look at these types. In double precision no call works: the constructor of Topology multiplies a float32 cosine with a float64 speed, tf.complex is given a float64 and a Python number in the Faraday rotation, and the pattern of the circular aperture raises."
  },
  {
   "property": "C180",
   "status": "proved",
   "theorems": [
    "OpenNTN.C180_array_precision"
   ],
   "note": "The constructor compares the wavelengths of arrays and scenario, and the comparison of tensors of different types raises."
  },
  {
   "property": "C181",
   "status": "proved",
   "theorems": [
    "OpenNTN.C181_conversions"
   ],
   "note": "Exact conditions for the subcarrier frequencies, the conversion to frequency and the conversion to time, with and without normalisation."
  },
  {
   "property": "C182",
   "status": "partial",
   "theorems": [
    "OpenNTN.C182_tdl_partial",
    "OpenNTN.C182_violated"
   ],
   "note": "In double precision the constructor raises while it computes the Doppler shift. In single precision a call works exactly if sampling frequency and (for models with scaled delays) delay spread are Python numbers or float32; the setter of the delay spread accepts any tensor. The call itself would work in double precision."
  },
  {
   "property": "C183",
   "status": "partial",
   "theorems": [
    "OpenNTN.C183_seed_partial",
    "OpenNTN.C183_not_reproducible",
    "OpenNTN.C183_violated"
   ],
   "note": "Only the large scale parameters (lsp.py 127) and the LoS states (utils.py 533) are drawn from config.tf_rng; all other draws use tf.random. Proved: what a run with the same seed has in common (exceptions, LoS states, geometry, free space loss, large scale parameters), and that the delays of an outdoor NLoS link are never determined by the seed, whatever happened before. Assumes that sionna.phy.config.seed seeds config.tf_rng and not tf.random; Sionna's source is not part of the repository."
  },
  {
   "property": "C184",
   "status": "proved",
   "theorems": [
    "OpenNTN.C184_model",
    "OpenNTN.C184_frequency",
    "OpenNTN.C184_time"
   ],
   "note": "Rounded operation by operation: frequencies, phases, tap positions. The complex exponential, the sinc function, products and sums over the paths are exact."
  },
  {
   "property": "C185",
   "status": "proved",
   "theorems": [
    "OpenNTN.C185_loss_law"
   ],
   "note": ""
  },
  {
   "property": "C186",
   "status": "partial",
   "theorems": [
    "OpenNTN.C186_partial",
    "OpenNTN.C186_violated"
   ],
   "note": "The arrival zenith angle of the LoS path is zod - 180 degrees wrapped to [180, 360), with the azimuth turned by 180 degrees too, so that the horizontal part of the direction is turned twice (C24). The coefficient of the specular path uses these angles as they are: the Doppler shift of the horizontal velocity has the wrong sign. Proved: the exact shift, when it is right and when it is reversed."
  },
  {
   "property": "C187",
   "status": "partial",
   "theorems": [
    "OpenNTN.C187_partial",
    "OpenNTN.C187_violated"
   ],
   "note": "Zenith angles of rays are folded into [0, 180] (rays.py 661-664), which undoes the reversed horizontal part of the LoS arrival direction (C24); the specular path (channel_coefficients.py 987-1051) uses the angle unfolded. So the rays of the first cluster arrive from the BS, the specular path from the direction mirrored at the vertical axis. Departure is right."
  },
  {
   "property": "C188",
   "status": "proved",
   "theorems": [
    "OpenNTN.C188_polarisations",
    "OpenNTN.C188_isotropic"
   ],
   "note": ""
  },
  {
   "property": "C189",
   "status": "partial",
   "theorems": [
    "OpenNTN.C189_partial",
    "OpenNTN.C189_link",
    "OpenNTN.C189_call",
    "OpenNTN.C189_sum_partial",
    "OpenNTN.C189_violated"
   ],
   "note": "Proved for platforms below 600 km, where an uplink call returns exactly what a downlink call with the cross-polarised phases exchanged returns. With the Faraday rotation (600 km and above) it fails: the rotation is applied next to the transmitter in both directions (as TR 38.811 writes it), so with a vertical UT antenna and a slanted satellite antenna at 2 GHz the scattered power in uplink and downlink differs. The power summed over both polarisations at both ends is the same in both directions at every altitude, and so is the specular path (C50)."
  },
  {
   "property": "C190",
   "status": "partial",
   "theorems": [
    "OpenNTN.C190_modules",
    "OpenNTN.C190_scenarios",
    "OpenNTN.C190_tdl",
    "OpenNTN.C190_cdl",
    "OpenNTN.C190_only_partial",
    "OpenNTN.C190_only_violated"
   ],
   "note": "find_packages() also finds the directory test, which has an __init__.py; its test files are installed as a top-level package test (prune in MANIFEST.in only concerns the source distribution). Everything that is needed is installed."
  },
  {
   "property": "C191",
   "status": "proved",
   "theorems": [
    "OpenNTN.C191_options"
   ],
   "note": ""
  },
  {
   "property": "C192",
   "status": "partial",
   "theorems": [
    "OpenNTN.C192_defaults_partial",
    "OpenNTN.C192_violated"
   ],
   "note": "The documentation has the defaults of street width (20 m in the code) and building height (5 m) exchanged. All other documented defaults are right, and these two do not change the configuration."
  },
  {
   "property": "C193",
   "status": "partial",
   "theorems": [
    "OpenNTN.C193_accepted_partial",
    "OpenNTN.C193_with_elevation",
    "OpenNTN.C193_violated"
   ],
   "note": "The documented call leaves out the elevation angle, which has no default: TypeError. Proved: exactly which calls make a channel model; the documented call works with an elevation angle from 10 to 90 degrees. The documented names rx_array and tx_array are rejected too."
  },
  {
   "property": "C194",
   "status": "proved",
   "theorems": [
    "OpenNTN.C194_panel_array",
    "OpenNTN.C194_antenna",
    "OpenNTN.C194_antenna_array"
   ],
   "note": ""
  },
  {
   "property": "C195",
   "status": "proved",
   "theorems": [
    "OpenNTN.C195_tdl"
   ],
   "note": ""
  },
  {
   "property": "C196",
   "status": "proved",
   "theorems": [
    "OpenNTN.C196_sector"
   ],
   "note": ""
  },
  {
   "property": "C197",
   "status": "partial",
   "theorems": [
    "OpenNTN.C197_parameters_partial",
    "OpenNTN.C197_violated"
   ],
   "note": "The documented names rx_array and tx_array of the channel models and min_bs_ut_dist of gen_single_sector_topology are rejected with a TypeError. All other documented parameters are accepted."
  },
  {
   "property": "C198",
   "status": "partial",
   "theorems": [
    "OpenNTN.C198_examples_partial",
    "OpenNTN.C198_violated"
   ],
   "note": "The channel models of the examples lack the elevation angle, and those in utils.py pass the unknown parameter o2i_model: TypeError. The examples of arrays, TDL models and topologies succeed."
  },
  {
   "property": "C199",
   "status": "proved",
   "theorems": [
    "OpenNTN.C199_simulation",
    "OpenNTN.C199_notebooks"
   ],
   "note": ""
  },
  {
   "property": "C200",
   "status": "proved",
   "theorems": [
    "OpenNTN.C200_centre",
    "OpenNTN.C200_model"
   ],
   "note": "Assumes the stated accuracy of the sine of the library and that it does not exceed one, that squares are rounded products, and that TensorFlow draws multiples of 2^-23."
  },
  {
   "property": "C201",
   "status": "proved",
   "theorems": [
    "OpenNTN.C201_tdl",
    "OpenNTN.C201_tdl_set",
    "OpenNTN.C201_cdl"
   ],
   "note": "The documentation asks for a delay spread of 10 ns with A30 (tdl.py 160-161); whatever is given, the code uses 30 ns, as the name says."
  },
  {
   "property": "C202",
   "status": "proved",
   "theorems": [
    "OpenNTN.C202_band",
    "OpenNTN.C202_band_plain",
    "OpenNTN.C202_rest",
    "OpenNTN.C202_tdl"
   ],
   "note": ""
  },
  {
   "property": "C203",
   "status": "partial",
   "theorems": [
    "OpenNTN.C203_height_partial",
    "OpenNTN.C203_violated"
   ],
   "note": "The check is commented out (utils.py 1149-1153, with the remark that a future version will restore it), so every non-negative height is accepted; below 600 km the channel silently has neither Faraday rotation nor Doppler shift of the satellite."
  },
  {
   "property": "C204",
   "status": "proved",
   "theorems": [
    "OpenNTN.C204_rank",
    "OpenNTN.C204_path"
   ],
   "note": ""
  },
  {
   "property": "C205",
   "status": "partial",
   "theorems": [
    "OpenNTN.C205_fan_partial",
    "OpenNTN.C205_inverted",
    "OpenNTN.C205_threshold",
    "OpenNTN.C205_violated",
    "OpenNTN.C205_frequency"
   ],
   "note": "The polynomial that corrects the zenith profile for the K-factor (rays.py 613-615, TR 38.901 equation 7.5-15) is negative below about -10 dB. There the zeniths are ordered the other way round, and close to this value they leave every bound. In the Ka band of the urban scenario at 30 degrees, where the K-factor has mean 12.48 dB and deviation 14.23 dB, this happens to more than one LoS link in fifty (proved). Azimuths are proved for all common K-factors, zeniths for at least -7 dB; the order of the zeniths alone is proved above, and refuted below, one value of the K-factor between -10 and -9.99 dB."
  },
  {
   "property": "C206",
   "status": "proved",
   "theorems": [
    "OpenNTN.C206_coefficients",
    "OpenNTN.C206_response"
   ],
   "note": ""
  },
  {
   "property": "C207",
   "status": "proved",
   "theorems": [
    "OpenNTN.C207_coherence"
   ],
   "note": ""
  },
  {
   "property": "C208",
   "status": "proved",
   "theorems": [
    "OpenNTN.C208_upright",
    "OpenNTN.C208_bands"
   ],
   "note": ""
  },
  {
   "property": "C209",
   "status": "proved",
   "theorems": [
    "OpenNTN.C209_gain",
    "OpenNTN.C209_pattern",
    "OpenNTN.C209_lobes",
    "OpenNTN.C209_grating"
   ],
   "note": ""
  },
  {
   "property": "C210",
   "status": "partial",
   "theorems": [
    "OpenNTN.C210_model",
    "OpenNTN.C210_distance_partial",
    "OpenNTN.C210_low_partial",
    "OpenNTN.C210_coincide",
    "OpenNTN.C210_singular",
    "OpenNTN.C210_violated"
   ],
   "note": "The coordinates of the UTs have the satellite's ground point as origin, so that single precision places the UTs on a grid of 4 m for a geostationary satellite at 30 degrees of elevation (16 m at 10 degrees). Proved: the distance is kept up to (slant range + 11 isd) / 2^22, half a metre up to a slant range of 2000 km. Missing: far satellites, where it fails; two UTs dropped 1.5625 m apart come to lie on one point, and the Cholesky factorisation of their correlation matrix fails."
  },
  {
   "property": "C211",
   "status": "partial",
   "theorems": [
    "OpenNTN.C211_model",
    "OpenNTN.C211_lag_partial",
    "OpenNTN.C211_subcarriers",
    "OpenNTN.C211_violated"
   ],
   "note": "Python multiplies in double precision, tf.math.ceil rounds the product to single precision first. Proved: products that are integers give the documented lag exactly; otherwise the lag is the documented one or one less, and the margin is six taps up to 2^-22 of the delay. Missing: the documented formula in all cases; for 20 MHz and 3.00000005 us the product 60.000001 is rounded to 60 and the range is one lag shorter."
  },
  {
   "property": "C212",
   "status": "proved",
   "theorems": [
    "OpenNTN.C212_model",
    "OpenNTN.C212_wrap",
    "OpenNTN.C212_top",
    "OpenNTN.C212_azimuth",
    "OpenNTN.C212_zenith"
   ],
   "note": "wrap_angle_0_360 documents the open range (0,360). Both ends are attained: 0 for multiples of 360, and 360 for small negative angles, e.g. -10^-6 degrees in single precision (C212_top); azimuths and zeniths stay in their ranges nevertheless."
  },
  {
   "property": "C213",
   "status": "proved",
   "theorems": [
    "OpenNTN.C213_model",
    "OpenNTN.C213_delays",
    "OpenNTN.C213_powers",
    "OpenNTN.C213_largest"
   ],
   "note": "The logarithm of the library only has to be between -20 and 0 for draws from 1e-6 to 1. Powers before normalisation are assumed to be numbers of the format between 0 and 1e20, one of them at least 1e-20; tf.math.pow in the scaling of delays is taken to be correctly rounded."
  },
  {
   "property": "C214",
   "status": "partial",
   "theorems": [
    "OpenNTN.C214_model",
    "OpenNTN.C214_partial",
    "OpenNTN.C214_violated"
   ],
   "note": "The arccosine in _gcs_to_lcs is taken of a rounded cosine: in single precision every direction within 3/16384 rad of the vertical axis of an array is taken for the axis itself. The error of a component is proved to be at most 1/300 (0.2 degrees) everywhere, and at most 2^-15 divided by the sine of the local zenith. The clipping keeps the arccosine defined."
  },
  {
   "property": "C215",
   "status": "proved",
   "theorems": [
    "OpenNTN.C215_model",
    "OpenNTN.C215_phase",
    "OpenNTN.C215_offset"
   ],
   "note": "Sums of three products are evaluated from left to right; the coordinates of the antennas are taken as they are stored."
  },
  {
   "property": "C216",
   "status": "proved",
   "theorems": [
    "OpenNTN.C216_model",
    "OpenNTN.C216_field"
   ],
   "note": "The local components and angles are taken as given; C214 bounds the error of the local direction. Near the vertical axis of the array the bound is empty, as zenith and azimuth components do not make sense there."
  },
  {
   "property": "C217",
   "status": "proved",
   "theorems": [
    "OpenNTN.C217_model",
    "OpenNTN.C217_aperture"
   ],
   "note": "Only single precision: in double precision the casts to float32 in the pattern fail (C137). The hypotheses on the library are not proved here."
  },
  {
   "property": "C218",
   "status": "partial",
   "theorems": [
    "OpenNTN.C218_model",
    "OpenNTN.C218_partial",
    "OpenNTN.C218_violated"
   ],
   "note": "Fails: the phase is the rounded product of Doppler frequency, time and cosine without reduction, so single precision loses the phase at some 10^7 rad (witness: half a radian after four seconds with a Doppler shift of 670 kHz). Proved: with N sinusoids and a rotation of M rad since the first sample the error is at most sqrt(N)(1e-5 M + 1e-7 N + 5e-6), thus a tenth up to 2000 rad for N up to 20; the bound also holds in double precision. Spatial correlation is not rounded here."
  },
  {
   "property": "C219",
   "status": "proved",
   "theorems": [
    "OpenNTN.C219_model",
    "OpenNTN.C219_patterns",
    "OpenNTN.C219_floor",
    "OpenNTN.C219_field"
   ],
   "note": "The aperture pattern is in C217. The hypotheses on the library are not proved here."
  },
  {
   "property": "C220",
   "status": "proved",
   "theorems": [
    "OpenNTN.C220_model",
    "OpenNTN.C220_accuracy",
    "OpenNTN.C220_limits",
    "OpenNTN.C220_rows"
   ],
   "note": "The error of the Cholesky factors and fused multiplication and addition are not modelled; the hypothesis on the power function is not proved here."
  },
  {
   "property": "C221",
   "status": "proved",
   "theorems": [
    "OpenNTN.C221_model",
    "OpenNTN.C221_defined",
    "OpenNTN.C221_azimuth",
    "OpenNTN.C221_zenith",
    "OpenNTN.C221_los"
   ],
   "note": "The scaling constants are taken as given in exact and rounded directions; wrapping and rays are in C212."
  },
  {
   "property": "C222",
   "status": "proved",
   "theorems": [
    "OpenNTN.C222_model",
    "OpenNTN.C222_split",
    "OpenNTN.C222_combined",
    "OpenNTN.C222_gain",
    "OpenNTN.C222_coefficient"
   ],
   "note": "Division and root of complex tensors are libraries with an assumed relative error, for numbers with imaginary part zero."
  },
  {
   "property": "C223",
   "status": "proved",
   "theorems": [
    "OpenNTN.C223_model",
    "OpenNTN.C223_ray",
    "OpenNTN.C223_cluster",
    "OpenNTN.C223_los",
    "OpenNTN.C223_array"
   ],
   "note": "Errors are relative to the product of bounds of the factors, since the exact sum may cancel. Field components and the factors of array, movement and path length enter with given errors; C223_array takes the error of the array from C215, C224 gives the one of movement. Exponential, sine and cosine are libraries with an assumed error."
  },
  {
   "property": "C224",
   "status": "proved",
   "theorems": [
    "OpenNTN.C224_model",
    "OpenNTN.C224_speed",
    "OpenNTN.C224_factor",
    "OpenNTN.C224_ray"
   ],
   "note": "The rotation is bounded because the assumed accuracy of the exponential is for phases up to 1e4; C148 shows what happens without a bound. The three products of the projection are added from the first to the last."
  },
  {
   "property": "C225",
   "status": "proved",
   "theorems": [
    "OpenNTN.C225_path"
   ],
   "note": "An absolute error of 1e-35 stands for results below the range of normal numbers. Errors of the inputs are those of C223 and C224."
  },
  {
   "property": "C226",
   "status": "proved",
   "theorems": [
    "OpenNTN.C226_model",
    "OpenNTN.C226_paths",
    "OpenNTN.C226_link"
   ],
   "note": "An absolute error of 1e-35 (2e-37 s for delays) stands for results below the range of normal numbers. Errors of the rays and of the LoS path are those of C223 and C224. The LoS path is added to the first path of the computed order, as in the code."
  },
  {
   "property": "C227",
   "status": "proved",
   "theorems": [
    "OpenNTN.C227_common",
    "OpenNTN.C227_products"
   ],
   "note": "The complex exponential of the library is assumed accurate to 2^-21 for all phases."
  },
  {
   "property": "C228",
   "status": "proved",
   "theorems": [
    "OpenNTN.C228_model",
    "OpenNTN.C228_frequency",
    "OpenNTN.C228_time"
   ],
   "note": "Without normalization. The complex exponential is assumed accurate to 2^-21 up to 10^4 rad, the sinc function to 2^-20."
  },
  {
   "property": "C229",
   "status": "proved",
   "theorems": [
    "OpenNTN.C229_model",
    "OpenNTN.C229_normalized",
    "OpenNTN.C229_unit"
   ],
   "note": "Magnitude and division of complex numbers are assumed accurate to 2^-21 (division: for divisors from 10^-12, with an absolute error of up to 10^-10)."
  },
  {
   "property": "C230",
   "status": "proved",
   "theorems": [
    "OpenNTN.C230_response",
    "OpenNTN.path_delay_nonneg"
   ],
   "note": "Libraries are assumed as accurate as in C222, C226 and C228."
  },
  {
   "property": "C231",
   "status": "proved",
   "theorems": [
    "OpenNTN.C231_taps"
   ],
   "note": "Libraries are assumed as accurate as in C222, C226 and C228."
  }
 ]
}