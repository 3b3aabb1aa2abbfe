c('C01','proved','C01_construct_iff')
c('C02','proved','C02_nearest_row')
c('C03','proved','C03_lookups_succeed')
c('C04','proved','C04_admissible_values')
c('C05','proved','C05_cross_correlation_cholesky')
c('C06','proved','C06_pair_coefficients C06_any_tables')
c('C07','proved','C07_parameter_file C07_files_distinct')
c('C08','proved','C08_los_monotone')
c('C09','partial','C09_scaling_constant_partial C09_scaling_constant_violated','The tables violate the property for Urban and Sub_Urban; proved for Dense_Urban, negation proved with a witness.')
c('C26','proved','C26_lsp_ranges')
c('C27','partial','C27_lsp_statistics_partial C27_tabulated_mean_deviation C27_violated','Marginals and spatial correlation exact; cross-LSP correlation of later UTs is attenuated when correlation distances differ: negation proved with a witness.')
c('C28','proved','C28_spatial_correlation')
c('C29','proved','C29_spatial_psd')
c('C30','partial','C30_zsd_mean_partial C30_violated','Holds in uplink; in downlink the mean is -inf: negation proved.')
c('C20','proved','C20_planar_distance')
c('C21','proved','C21_slant_range')
c('C23','proved','C23_departure_direction')
c('C24','partial','C24_arrival_direction_partial C24_violated','The reported arrival direction has the right vertical part and a reversed horizontal part, so it is right exactly if the BS is straight above or below the UT: exact characterisation and negation proved.')
c('C25','proved','C25_indoor_split')
c('C52','proved','C52_step12_gain')
c('C53','partial','C53_shadow_fading_disabled_partial C53_violated','The basic path loss always contains a shadow fading draw: negation proved for every configuration with path loss enabled.')
c('C54','partial','C54_shadow_fading_partial C54_violated','The deviation has twice the variance of the table with path loss enabled: law proved, negation proved.')
c('C55','proved','C55_basic_pathloss')
c('C56','partial','C56_losses_partial C56_threshold C56_violated','Gas, entry loss and sum for all atmospheres. The scintillation loss is a number if and only if the quantity 1.22 D_eff^2 f L^-1 is at most one threshold between 6.9 and 7.1 (C56_threshold); for larger antennas it is NaN, where ITU-R P.618 names no scintillation: negation proved.')
c('C57','partial','C57_path_length_partial C57_violated','The code puts the sine inside the root: exact comparison proved for all elevations, negation proved.')
c('C10','partial','C10_arguments_persist_partial C10_violated','Proved for calls that get past the assertions, hence for one BS and physical atmospheres in full; a call that fails later (two BSs) keeps what it stored: negation proved.')
c('C11','partial','C11_assertion_partial C11_violated','Same restriction as C10; negation proved with two BSs.')
c('C12','partial','C12_derived_fresh_partial C12_violated','In full for one BS; with two BSs a successful empty call follows a failed one: negation proved.')
c('C13','partial','C13_atmosphere_partial C13_violated','Omitted parameters are reset to standard values: negation proved.')
c('C14','partial','C14_atmosphere_fresh_partial C14_violated','Only relocating calls recompute the losses: negation proved.')
c('C15','proved','C15_los_state')
c('C22','partial','C22_altitude_partial C22_violated','The altitude of batch example 0 is used for all: negation proved.')
c('C16','proved','C16_lsp_frozen')
c('C17','proved','C17_lsp_fresh')
c('C18','partial','C18_generation_possible_partial C18_violated','Proved for one BS and UTs at different planar positions; with two BSs an empty call succeeds after a failed one and generation then fails: negation proved.')
c('C19','partial','C19_standard_atmosphere_partial C19_violated','The channel model does not pass the atmosphere on: only the standard atmosphere is reachable, negation proved.')
c('C31','proved','C31_active_clusters')
c('C32','partial','C32_delays_partial C32_threshold C32_violated','Proved for NLoS links and K-factors of at least -60 dB; the LoS scaling polynomial is negative below one threshold between -63.4 and -63.3 dB, above which the claim holds and up to which it fails (exact): negation proved.')
c('C33','proved','C33_inactive_last')
c('C34','proved','C34_powers')
c('C35','partial','C35_outdoor_partial C35_violated','Indoor UTs have no active cluster, so the normalisation is 0/0 in every configuration: negation proved.')
c('C36','proved','C36_first_cluster raysCall_defined')
c('C37','proved','C37_normalised')
c('C38','proved','C38_coupling')
c('C39','partial','C39_offsets_partial C39_violated','One of the ten pairs is not opposite (1.1481, -0.1481): negation proved, resulting bias computed.')
c('C40','proved','C40_xpr')
c('C41','partial','C41_departure_partial C41_violated','The code looks at the height of the first BS of the first batch example only: negation proved for a batch of two.')
c('C42','proved','C42_rotation')
c('C43','proved','C43_angles')
c('C44','proved','C44_field')
c('C45','proved','C45_phases')
c('C46','proved','C46_rays_once')
c('C47','proved','C47_paths C47_first_delay')
c('C48','proved','C48_kfactor')
c('C49','proved','C49_satellite_doppler')
c('C50','proved','C50_reciprocity C50_reciprocal')
c('C51','proved','C51_axes')
c('C58','proved','C58_geometry')
c('C59','proved','C59_distinct')
c('C60','proved','C60_partition')
c('C61','proved','C61_patterns')
c('C62','partial','C62_slants_partial C62_violated','Line 527 compares polarization instead of polarization_type with VH, so VH yields slants of -45 and 45 degrees: negation proved; everything else proved.')
c('C75','proved','C75_kepler')
c('C82','proved','C82_finite')
c('C63','proved','C63_subcarriers')
c('C64','proved','C64_frequency_response')
c('C65','proved','C65_taps')
c('C66','proved','C66_taps_to_ofdm')
c('C67','proved','C67_tap_range')
c('C83','proved','C83_time_frequency')
c('C84','proved','C84_agreement')
c('C68','proved','C68_elevation')
c('C69','partial','C69_boresight_partial C69_violated','arctan(y/x) ignores the quadrant: a UT with negative x looks in the opposite horizontal direction; negation proved.')
c('C70','proved','C70_accepted')
c('C71','partial','C71_outdoor_partial C71_violated','The probability is overwritten by 0 before use: negation proved.')
c('C72','partial','C72_raises_partial C72_violated','The function refers to an undefined name and raises for all arguments: negation and the exact error proved.')
c('C73','proved','C73_defaults')
c('C74','proved','C74_rigid')
c('C85','proved','C85_bs_faces_down')
c('C76','proved','C76_exponential')
c('C77','proved','C77_one_ring')
c('C78','proved','C78_normalised')
c('C79','partial','C79_names_partial C79_violated','The accepted name "E" leads to a NameError: negation proved. All other names proved.')
c('C80','partial','C80_call_partial C80_violated','The call never succeeds: the topology is built without three required arguments. Negation proved, construction proved.')
c('C81','partial','C81_additive_partial C81_violated C81_idempotent C81_windows','If the old import is the last line and lacks a newline the new import is glued to it: negation proved; idempotence proved for all contents; files with Windows line ends are covered too.')
c('C86','partial','C86_covariance_partial C86_violated','The Cholesky factor of the transmit side is multiplied without transposition: negation proved, exact covariance proved.')
c('C87','proved','C87_average_power')
c('C88','partial','C88_doppler_partial C88_violated','Satellite part too small by the factor 7200 pi: negation and exact value proved.')
c('C89','proved','C89_delays')
c('C90','proved','C90_normalised')
c('C91','proved','C91_angles')
c('C92','proved','C92_azimuth')
c('C93','proved','C93_zenith C93_indoor')
c('C94','partial','C94_shared_partial C94_violated','Signs and coupling draws have a singleton UT axis and are shared by all UTs of a BS: negation proved.')
c('C95','partial','C95_offset_partial C95_violated','The offset is computed in radian and added to degrees: negation and a bound on the error proved.')
c('C96','partial','C96_gas_partial C96_violated','The equivalent height of water vapour uses 8.1 and 1.5 instead of 8.6 and 1.58: negation proved; everything else exact, loss within 8 % proved.')
c('C97','partial','C97_scintillation_partial C97_violated','NaN for large antennas, another effective path length (C57) and 273 instead of 273.15 K: negation proved, exact value proved.')
c('C98','proved','C98_shape')
c('C99','partial','C99_gain_partial C99_violated','The grid counts azimuths -180 and 180 degrees twice, so the directivity of an isotropic element is reported negative: negation and a bound of 0.014 dB proved; gains exact.')
c('C100','proved','C100_average C100_passive')
c('C101','partial','C101_doppler_partial C101_violated','The factor R/(R+h) of TR 38.811 6.9.2 is missing: negation proved; the range rate is exactly (R+h)/R times a possible one.')
c('C102','proved','C102_penetration')
c('C103','partial','C103_helper_partial C103_violated','The function has no return statement and returns None: negation proved; the expression it computes is the largest shift.')
c('C104','proved','C104_distributions','Nine cells of the test suite differ from the parameter files by less than its tolerance; they are listed in the definition `differing` (Lemmas/Standard.lean) and the bound 0.1 is proved for them.')
c('C105','proved','C105_cross_correlations')
c('C106','proved','C106_correlation_distances')
c('C107','proved','C107_los_probability')
c('C108','proved','C108_clutter_shadow')
c('C109','proved','C109_delay_scaling')
c('C110','proved','C110_directions')
c('C111','proved','C111_constructor')
c('C112','proved','C112_default_spacing C112_derived_classes')
c('C113','proved','C113_autocorrelation')
c('C114','proved','C114_uncorrelated')
c('C115','proved','C115_orientation')
c('C116','proved','C116_ray')
c('C117','partial','C117_los_partial C117_violated','Code violates the full claim, proved as C117_violated: channel_coefficients.py 1037-1042 turns the LoS coefficient by +2 pi d / lambda, TR 38.901 equation 7.5-29 by -2 pi d / lambda. All other factors agree.')
c('C118','proved','C118_link_budget')
c('C119','proved','C119_elevation')
c('C120','proved','C120_doppler_switch C120_switched_off C120_common_shift')
c('C121','proved','C121_sampling')
c('C122','partial','C122_batch_partial C122_violated','the slant range, the treatment of satellites and the satellite speed of all examples are those of the altitude in the first example (system_level_scenario.py 811, rays.py 434, system_level_channel.py 212); the theorem holds for selections whose first example has the altitude of the first example of the batch')
c('C123','proved','C123_displacement')
c('C124','proved','C124_heading')
c('C125','proved','C125_scene')
c('C126','proved','C126_forgets C126_scenario_forgets')
c('C127','partial','C127_attributes_partial C127_arguments C127_spatial_correlation C127_slant C127_violated','additional_pathloss raises AttributeError in every state: `_pl_a` is only written by compute_pathloss_additional, whose call is commented out (system_level_scenario.py 663). All other attributes are proved readable and current.')
c('C128','proved','C128_cloud')
c('C129','partial','C129_specific_partial C129_violated','compute_pathloss_additional ignores the rain rate passed to set_topology: utils.py 1920 uses the constant 40. With that constant the coefficients are proved to be those of P.838 at every frequency and elevation.')
c('C130','partial','C130_additional_partial C130_never C130_violated','The station height in the downlink is the satellite altitude in metres, far above the rain height in kilometres, so math.sqrt gets a negative number; batches of several examples raise a type error. In the uplink the horizontal path is divided by 1000 although it is already in kilometres (utils.py 1828), and the computation works only under the inequality stated in the theorem. This inequality holds nowhere in the two accepted frequency bands, proved with bounds of the ITU curves on nine intervals (C130_never): below 90 degrees elevation and at latitudes from -90 to 89 degrees the loss can be computed in no configuration.')
c('C131','proved','C131_attributes')
c('C132','proved','C132_tdl_profiles','The profiles in Spec/Profiles.lean were recalled, no copy of the standards was at hand; they agree with the files.')
c('C133','proved','C133_cdl_profiles','Angles, spreads and ratios were read off the files; the cluster angles at the terminal are not compared with the standard.')
c('C134','proved','C134_almost_surely_finite C134_almost_surely_finite_frozen','')
c('C135','proved','C135_last_uts_removed','')
c('C136','partial','C136_each_parameter_partial C136_violated','Proved: for each parameter, its values for any selection of UTs in any order have the same joint law as if only those were simulated in that order. Full claim proved false: the cross-correlation is applied before the spatial one with factors per parameter (lsp.py 132-142), so the correlation of delay spread and K-factor of a UT depends on whether another UT nearby has a lower number (same cause as C27).')
c('C137','partial','C137_single_partial C137_double C137_violated','Violated: in double precision `gen_single_sector_topology` fails for all arguments (a draw without element type gets a float64 bound, zeros without element type are added to float64), `set_topology` fails (`tf.math.sin` of a Python number is float32 and is added to the float64 height), the TDL constructor fails (`tf.math.sqrt` of a Python number is multiplied with the float64 carrier frequency) and the aperture pattern fails (constants cast to float32). Single precision works. Proved: the negation, the exact behaviour in double precision and the claim for single precision.')
c('C138','proved','C138_los_law','')
c('C139','proved','C139_pathloss_law','')
c('C140','proved','C140_second_order','')
c('C141','proved','C141_frequency_correlation','')
c('C142','proved','C142_plain','')
c('C143','partial','C143_call_partial C143_violated C143_violated_transmit C143_violated_specular','Violated in two ways. The transmit factor is multiplied from the right without transposition, so with a transmit correlation of 0.6 the first antenna gets 1.36 times its power. The specular component of LoS models is the same for all antennas before the multiplication with the factor, so with a receive correlation of 0.6 the specular power of the second antenna of model D is 1.96 times too large. Proved: the call always succeeds with the reported delays; mean powers are right without matrices, and with a joint or receive matrix for all taps without specular component; the scattered part then has the requested covariance.')
c('C144','proved','C144_cluster_law','')
c('C145','partial','C145_drop_partial C145_violated','Violated: the centre of the drop is drawn with shape [1], once for the whole batch (utils.py 584), so UTs of different batch examples are always within one inter-site distance of each other in both coordinates. With the defaults of the dense urban scenario the first coordinates of two UTs of different examples are not independent. Proved: relative to the centre all UTs of all examples are independent and uniform in a square, heights, speeds and headings have the configured laws, and the generation succeeds almost surely.')
c('C146','proved','C146_coupling_law','That all UTs of a BS share the couplings is C94.')
c('C147','partial','C147_phase_partial C147_violated C147_model','The code violates the claim in single precision, the default: at 2 GHz and a path of 786.432 km the phase is off by 2.15 rad (C147_violated); with growing phase only multiples of ever larger steps are representable, from 2^27 rad on (Ka band LEO) multiples of 16 rad. Proved instead: relative error of eight units, hence the claim in double precision, and in single precision up to 165 000 wavelengths. The carrier frequency reaches the generator as a tensor (system level) or a Python number (CDL); both are covered.')
c('C148','partial','C148_phase_partial C148_violated C148_model','The code violates the claim in single precision, the default: at 20 GHz and 4096 m/s the phase is off by 1.58 rad after ten seconds (C148_violated). Proved instead: an error of 14 units of the total rotation, hence the claim in double precision, and in single precision up to 119 000 rad.')
c('C149','proved','C149_distance C149_loss C149_model','Assumes the stated accuracy of sine and logarithm of the library, and that squares are rounded products.')
c('C150','proved','C150_shapes','')
c('C151','partial','C151_violated C151_accepted_partial C151_large_partial','The code violates it (C151_violated): tensors with a single example or UT are repeated. After a scene with one UT, set_topology(ut_loc=...) with three UTs alone is accepted and a channel for three UTs is generated, all with the orientation, velocity and indoor state of the one. Proved instead: exactly which sizes are accepted by set_topology and by the generation, that the result is for the number of UTs of the locations, and that only equal sizes are accepted if none of them is 1. Orientations and velocities of wrong sizes are not noticed by set_topology but by the generation.')
c('C152','proved','C152_direction_law','')
c('C153','proved','C153_energy C153_normalised','')
c('C154','proved','C154_pipeline C154_delays C154_tdl','')
c('C155','proved','C155_joint_law','')
c('C156','partial','C156_accepted_partial C156_violated','Only the lower triangle and the real parts of the diagonal are read, so a matrix that is not Hermitian is accepted and used as if its upper triangle were the conjugate of the lower one (0.6 below and 2 above the diagonal act like 0.6). Among Hermitian matrices exactly the positive definite ones are accepted; ones on the diagonal are not required.')
c('C157','partial','C157_others_partial C157_violated','proved for every argument but the height: integers, floats, tensors and omissions may be mixed. An integer `bs_height` such as 600000 is always rejected, because `tf.fill` and `tf.math.square` make it an int32 tensor that is combined with floats (utils.py 1164, 586). Missing: that case, which is false')
c('C158','proved','C158_entry_types C158_whole C158_cast_needed C158_sides','C158_cast_needed shows that without the conversion in `get_param` one scenario would fail')
c('C159','proved','C159_axes','')
c('C160','partial','C160_scale_partial C160_violated','Violated (C160_violated): BSs and UTs are scaled separately, so with UTs near the origin and a BS at 600 km the UTs are drawn in metres and the BS in kilometres; the axes x and y are labelled with the unit of the UTs and the axis z with that of the BSs. Proved: to scale if and only if UTs and BSs alike exceed 10 km or both do not; always each group in a unit of its own, which is the one written at x and y (UTs) or z (BSs).')
c('C161','partial','C161_groups_partial C161_violated','Violated (C161_violated): the points of indoor UTs are commented out, only their indices and axes are drawn. Proved: the call succeeds, BSs and outdoor UTs are shown exactly once and in the right group.')
c('C162','partial','C162_drawn_partial C162_violated','Violated (C162_violated) for polarization type "VH": the elements are built with slants of -45 and 45 degrees (C62) and drawn as horizontal and vertical lines; even with the documented slants the two lines would be exchanged. Proved: drawn faithfully for "V", "H" and "cross"; places and numbers always.')
c('C163','proved','C163_window C163_default','')
c('C164','partial','C164_shown_partial C164_violated','The two cuts are right. The surface uses 100 angles on both axes, so that boresight (zenith angle 90 degrees, azimuth 0) is never drawn: for the aperture antenna no point drawn has more than 81 per cent of the largest gain. Line 112 calls tf.math.log(a, 10), whose second argument is a name: the surface of the aperture antenna is 50 plus the natural logarithm of the gain while the axis says dB.')
c('C165','proved','C165_panel','')
c('C166','partial','C166_azimuth_partial C166_violated','Line 587 draws the x coordinate uniformly, not the angle: the azimuth is at most t with probability 1 - cos t, so that half of the drops lie in the last 30 of 90 degrees. The docstring says that UTs are sampled uniformly from a sector.')
c('C167','proved','C167_link C167_links','independence is given the rays and large-scale parameters, which are correlated between links (C28, C94)')
c('C168','partial','C168_match_partial C168_model C168_violated','The comparison is of rounded wavelengths. Equal frequencies always pass and frequencies that pass agree up to 7 units of rounding (4.2e-7 relative in single precision, 7.8e-16 in double precision), but different frequencies can pass: in single precision a scenario at 2 GHz accepts arrays for 2 GHz + 1 Hz (C168_violated).')
c('C169','proved','C169_moment C169_limit','')
c('C170','proved','C170_fading','')
c('C171','proved','C171_imports','Sionna itself is abstracted to the set of names it has when Python reaches the inserted line, and is complete afterwards')
c('C172','partial','C172_copies_partial C172_violated','The link makes Python load the files twice, as OpenNTN and as sionna.phy.channel.tr38811, with separate classes. A scenario accepts exactly the arrays of its own copy (isinstance, system_level_scenario.py 92-95), so that scenarios of one name with arrays of the other fail an assertion.')
c('C173','partial','C173_link_partial C173_violated','Modules import from sionna.phy.channel.tr38811 by absolute name, so without the link nothing of the package can be imported; with the inserted line and no link not even Sionna can.')
c('C174','partial','C174_location_partial C174_violated','install.sh 17-18 cut the location at its first space. In a directory without spaces the installation works (given the names of C171). With a space in the directory of Sionna no link is made, but the line is inserted, so that Sionna itself can no longer be imported.')
c('C175','partial','C175_runs_partial C175_violated C175_violated_files','ln -s follows the link of the first run, so the second run makes a link named OpenNTN to the package inside the package; later runs change nothing. A file named post_install.py in the working directory is overwritten and deleted.')
c('C176','partial','C176_slant_partial C176_violated','The slant range is computed on a sphere and the positions are in a plane. Exact relation proved: (D-d)(D+d+2R sin el) = rho^2 - z(2R+2H-z) for distance D, slant range d, horizontal distance rho. For a UT at height zero d is at most D, with equality at the zenith only.')
c('C177','partial','C177_elevation_partial C177_violated','set_topology does not check the elevation, so UTs below the satellite are accepted by a scenario for 50 degrees. For scenes generated for the elevation of the scenario the reported direction has this elevation up to the size of the cell.')
c('C178','partial','C178_nadir_partial C178_violated','The direction at the satellite is that of a plane: nadir angle 90 degrees minus elevation. The angle in the triangle of the slant range is smaller, unless the satellite is in the zenith.')
c('C179','partial','C179_single_partial C179_double C179_violated','In single precision a call works exactly when orientations and velocities are float32 and the sampling frequency is a Python number or float32; set_topology does not look at these types. In double precision no call works: the constructor of Topology multiplies a float32 cosine with a float64 speed, tf.complex is given a float64 and a Python number in the Faraday rotation, and the pattern of the circular aperture raises.')
c('C180','proved','C180_array_precision','The constructor compares the wavelengths of arrays and scenario, and the comparison of tensors of different types raises.')
c('C181','proved','C181_conversions','Exact conditions for the subcarrier frequencies, the conversion to frequency and the conversion to time, with and without normalisation.')
c('C182','partial','C182_tdl_partial C182_violated','In double precision the constructor raises while it computes the Doppler shift. In single precision a call works exactly if sampling frequency and (for models with scaled delays) delay spread are Python numbers or float32; the setter of the delay spread accepts any tensor. The call itself would work in double precision.')
c('C183','partial','C183_seed_partial C183_not_reproducible C183_violated',"Only the large scale parameters (lsp.py 127) and the LoS states (utils.py 533) are drawn from config.tf_rng; all other draws use tf.random. Proved: what a run with the same seed has in common (exceptions, LoS states, geometry, free space loss, large scale parameters), and that the delays of an outdoor NLoS link are never determined by the seed, whatever happened before. Assumes that sionna.phy.config.seed seeds config.tf_rng and not tf.random; Sionna's source is not part of the repository.")
c('C184','proved','C184_model C184_frequency C184_time',"Rounded operation by operation: frequencies, phases, tap positions. The complex exponential, the sinc function, products and sums over the paths are exact.")
c('C185','proved','C185_loss_law','')
c('C186','partial','C186_partial C186_violated',"The arrival zenith angle of the LoS path is zod - 180 degrees wrapped to [180, 360), with the azimuth turned by 180 degrees too, so that the horizontal part of the direction is turned twice (C24). The coefficient of the specular path uses these angles as they are: the Doppler shift of the horizontal velocity has the wrong sign. Proved: the exact shift, when it is right and when it is reversed.")
c('C187','partial','C187_partial C187_violated',"Zenith angles of rays are folded into [0, 180] (rays.py 661-664), which undoes the reversed horizontal part of the LoS arrival direction (C24); the specular path (channel_coefficients.py 987-1051) uses the angle unfolded. So the rays of the first cluster arrive from the BS, the specular path from the direction mirrored at the vertical axis. Departure is right.")
c('C188','proved','C188_polarisations C188_isotropic','')
c('C189','partial','C189_partial C189_link C189_call C189_sum_partial C189_violated','Proved for platforms below 600 km, where an uplink call returns exactly what a downlink call with the cross-polarised phases exchanged returns. With the Faraday rotation (600 km and above) it fails: the rotation is applied next to the transmitter in both directions (as TR 38.811 writes it), so with a vertical UT antenna and a slanted satellite antenna at 2 GHz the scattered power in uplink and downlink differs. The power summed over both polarisations at both ends is the same in both directions at every altitude, and so is the specular path (C50).')
c('C190','partial','C190_modules C190_scenarios C190_tdl C190_cdl C190_only_partial C190_only_violated','find_packages() also finds the directory test, which has an __init__.py; its test files are installed as a top-level package test (prune in MANIFEST.in only concerns the source distribution). Everything that is needed is installed.')
c('C191','proved','C191_options','')
c('C192','partial','C192_defaults_partial C192_violated','The documentation has the defaults of street width (20 m in the code) and building height (5 m) exchanged. All other documented defaults are right, and these two do not change the configuration.')
c('C193','partial','C193_accepted_partial C193_with_elevation C193_violated','The documented call leaves out the elevation angle, which has no default: TypeError. Proved: exactly which calls make a channel model; the documented call works with an elevation angle from 10 to 90 degrees. The documented names rx_array and tx_array are rejected too.')
c('C194','proved','C194_panel_array C194_antenna C194_antenna_array','')
c('C195','proved','C195_tdl','')
c('C196','proved','C196_sector','')
c('C197','partial','C197_parameters_partial C197_violated','The documented names rx_array and tx_array of the channel models and min_bs_ut_dist of gen_single_sector_topology are rejected with a TypeError. All other documented parameters are accepted.')
c('C198','partial','C198_examples_partial C198_violated','The channel models of the examples lack the elevation angle, and those in utils.py pass the unknown parameter o2i_model: TypeError. The examples of arrays, TDL models and topologies succeed.')
c('C199','proved','C199_simulation C199_notebooks','')
c('C200','proved','C200_centre C200_model','Assumes the stated accuracy of the sine of the library and that it does not exceed one, that squares are rounded products, and that TensorFlow draws multiples of 2^-23.')
c('C201','proved','C201_tdl C201_tdl_set C201_cdl','The documentation asks for a delay spread of 10 ns with A30 (tdl.py 160-161); whatever is given, the code uses 30 ns, as the name says.')
c('C202','proved','C202_band C202_band_plain C202_rest C202_tdl','')
c('C203','partial','C203_height_partial C203_violated','The check is commented out (utils.py 1149-1153, with the remark that a future version will restore it), so every non-negative height is accepted; below 600 km the channel silently has neither Faraday rotation nor Doppler shift of the satellite.')
c('C204','proved','C204_rank C204_path','')
c('C205','partial','C205_fan_partial C205_inverted C205_threshold C205_violated C205_frequency','The polynomial that corrects the zenith profile for the K-factor (rays.py 613-615, TR 38.901 equation 7.5-15) is negative below about -10 dB. There the zeniths are ordered the other way round, and close to this value they leave every bound. In the Ka band of the urban scenario at 30 degrees, where the K-factor has mean 12.48 dB and deviation 14.23 dB, this happens to more than one LoS link in fifty (proved). Azimuths are proved for all common K-factors, zeniths for at least -7 dB; the order of the zeniths alone is proved above, and refuted below, one value of the K-factor between -10 and -9.99 dB.')
c('C206','proved','C206_coefficients C206_response','')
c('C207','proved','C207_coherence','')
c('C208','proved','C208_upright C208_bands','')
c('C209','proved','C209_gain C209_pattern C209_lobes C209_grating','')
c('C210','partial','C210_model C210_distance_partial C210_low_partial C210_coincide C210_singular C210_violated','The coordinates of the UTs have the satellite\'s ground point as origin, so that single precision places the UTs on a grid of 4 m for a geostationary satellite at 30 degrees of elevation (16 m at 10 degrees). Proved: the distance is kept up to (slant range + 11 isd) / 2^22, half a metre up to a slant range of 2000 km. Missing: far satellites, where it fails; two UTs dropped 1.5625 m apart come to lie on one point, and the Cholesky factorisation of their correlation matrix fails.')
c('C211','partial','C211_model C211_lag_partial C211_subcarriers C211_violated','Python multiplies in double precision, tf.math.ceil rounds the product to single precision first. Proved: products that are integers give the documented lag exactly; otherwise the lag is the documented one or one less, and the margin is six taps up to 2^-22 of the delay. Missing: the documented formula in all cases; for 20 MHz and 3.00000005 us the product 60.000001 is rounded to 60 and the range is one lag shorter.')
c('C212','proved','C212_model C212_wrap C212_top C212_azimuth C212_zenith','wrap_angle_0_360 documents the open range (0,360). Both ends are attained: 0 for multiples of 360, and 360 for small negative angles, e.g. -10^-6 degrees in single precision (C212_top); azimuths and zeniths stay in their ranges nevertheless.')
c('C213','proved','C213_model C213_delays C213_powers C213_largest','The logarithm of the library only has to be between -20 and 0 for draws from 1e-6 to 1. Powers before normalisation are assumed to be numbers of the format between 0 and 1e20, one of them at least 1e-20; tf.math.pow in the scaling of delays is taken to be correctly rounded.')
c('C214','partial','C214_model C214_partial C214_violated','The arccosine in _gcs_to_lcs is taken of a rounded cosine: in single precision every direction within 3/16384 rad of the vertical axis of an array is taken for the axis itself. The error of a component is proved to be at most 1/300 (0.2 degrees) everywhere, and at most 2^-15 divided by the sine of the local zenith. The clipping keeps the arccosine defined.')
c('C215','proved','C215_model C215_phase C215_offset','Sums of three products are evaluated from left to right; the coordinates of the antennas are taken as they are stored.')
c('C216','proved','C216_model C216_field','The local components and angles are taken as given; C214 bounds the error of the local direction. Near the vertical axis of the array the bound is empty, as zenith and azimuth components do not make sense there.')
c('C217','proved','C217_model C217_aperture','Only single precision: in double precision the casts to float32 in the pattern fail (C137). The hypotheses on the library are not proved here.' )
c('C218','partial','C218_model C218_partial C218_violated','Fails: the phase is the rounded product of Doppler frequency, time and cosine without reduction, so single precision loses the phase at some 10^7 rad (witness: half a radian after four seconds with a Doppler shift of 670 kHz). Proved: with N sinusoids and a rotation of M rad since the first sample the error is at most sqrt(N)(1e-5 M + 1e-7 N + 5e-6), thus a tenth up to 2000 rad for N up to 20; the bound also holds in double precision. Spatial correlation is not rounded here.' )
c('C219','proved','C219_model C219_patterns C219_floor C219_field','The aperture pattern is in C217. The hypotheses on the library are not proved here.' )
c('C220','proved','C220_model C220_accuracy C220_limits C220_rows','The error of the Cholesky factors and fused multiplication and addition are not modelled; the hypothesis on the power function is not proved here.' )
c('C221','proved','C221_model C221_defined C221_azimuth C221_zenith C221_los','The scaling constants are taken as given in exact and rounded directions; wrapping and rays are in C212.' )
c('C222','proved','C222_model C222_split C222_combined C222_gain C222_coefficient','Division and root of complex tensors are libraries with an assumed relative error, for numbers with imaginary part zero.' )
c('C223','proved','C223_model C223_ray C223_cluster C223_los C223_array','Errors are relative to the product of bounds of the factors, since the exact sum may cancel. Field components and the factors of array, movement and path length enter with given errors; C223_array takes the error of the array from C215, C224 gives the one of movement. Exponential, sine and cosine are libraries with an assumed error.' )
c('C224','proved','C224_model C224_speed C224_factor C224_ray','The rotation is bounded because the assumed accuracy of the exponential is for phases up to 1e4; C148 shows what happens without a bound. The three products of the projection are added from the first to the last.' )
c('C225','proved','C225_path','An absolute error of 1e-35 stands for results below the range of normal numbers. Errors of the inputs are those of C223 and C224.' )
c('C226','proved','C226_model C226_paths C226_link','An absolute error of 1e-35 (2e-37 s for delays) stands for results below the range of normal numbers. Errors of the rays and of the LoS path are those of C223 and C224. The LoS path is added to the first path of the computed order, as in the code.' )
c('C227','proved','C227_common C227_products','The complex exponential of the library is assumed accurate to 2^-21 for all phases.' )
c('C228','proved','C228_model C228_frequency C228_time','Without normalization. The complex exponential is assumed accurate to 2^-21 up to 10^4 rad, the sinc function to 2^-20.' )
c('C229','proved','C229_model C229_normalized C229_unit','Magnitude and division of complex numbers are assumed accurate to 2^-21 (division: for divisors from 10^-12, with an absolute error of up to 10^-10).' )
c('C230','proved','C230_response path_delay_nonneg','Libraries are assumed as accurate as in C222, C226 and C228.' )
c('C231','proved','C231_taps','Libraries are assumed as accurate as in C222, C226 and C228.' )
