{
 "zod-offset-sign": {
  "claim": "the zenith offset of departure has the sign of TR 38.901 equation 7.5-19",
  "tightened": [
   "C95_offset_partial",
   "C95_violated"
  ],
  "remark": "Survived at first: C36 and C41 hold for either sign of the offset. C95 was added and the edit fails now."
 },
 "zen-dev": {
  "claim": "zenith deviations follow TR 38.901 equation 7.5-14",
  "tightened": [
   "C93_zenith"
  ],
  "remark": "Survived at first: only the LoS cluster was pinned. C93 was added and the edit fails now."
 },
 "array-spacing": {
  "claim": "default panel spacing leaves half a wavelength between facing elements",
  "tightened": [
   "C111_constructor",
   "C112_default_spacing"
  ],
  "remark": "Only an example failed at first. C111 and C112 were added."
 },
 "update-order": {
  "claim": "none (equivalent program)",
  "remark": "The order of the independent updates is not observable."
 },
 "shuffle-noinj": {
  "claim": "none: the identity coupling is also a permutation; fails because the model's coupling is used by name",
  "remark": "Control case."
 },
 "ofdm-nonan": {
  "claim": "none (a zero channel stays zero either way)",
  "remark": "Control case."
 },
 "panel-index": {
  "claim": "order of the elements inside a panel",
  "remark": "Only the numbering of the elements changes; pinned by the closed form of the positions."
 },
 "cir-meanzsd": {
  "claim": "rays of departure are spread by the mean zenith spread of departure of the table",
  "tightened": [
   "C125_scene",
   "C93_zenith"
  ],
  "remark": "Survived at first: C51 and C93 leave open which mean the ray generator is given. C125 was added and the edit fails now."
 },
 "los-delay": {
  "claim": "the LoS phase is the distance in wavelengths",
  "tightened": [
   "C117_los_partial"
  ],
  "remark": "Survived at first. C117 was added and the edit fails now."
 },
 "doppler-flag": {
  "claim": "Doppler of the satellite can be switched off",
  "tightened": [
   "C120_doppler_switch",
   "C120_switched_off"
  ],
  "remark": "Survived at first. C120 was added and the edit fails now."
 },
 "tdl-file": {
  "claim": "each TDL name has the profile published under it",
  "tightened": [
   "C132_tdl_profiles"
  ],
  "remark": "Survived at first: nothing compared the file read with the name. C132 was added and the edit fails now."
 },
 "auto1-Rays-zoaClusters-1": {
  "claim": "waves to an indoor UT arrive around the horizon (90 degrees)",
  "tightened": [
   "C93_indoor"
  ],
  "remark": "Survived at first: C93 spoke about outdoor links only. C93_indoor was added and the edit fails now."
 },
 "reduce-plain": {
  "claim": "without sub-clusters, coefficients keep their delay",
  "tightened": [
   "C142_plain"
  ],
  "remark": "Survived at first: the branch without sub-clusters was not covered. C142 was added and the edit fails now."
 },
 "getter-aoa": {
  "claim": "the angle of arrival reported is that of arrival",
  "tightened": [
   "C127_attributes_partial"
  ],
  "remark": "Survived at first: C127 left the four angles out. It was extended and the edit fails now."
 },
 "rain-av": {
  "claim": "none (equivalent program)",
  "remark": "At the polarisation tilt of 45 degrees the term is multiplied by cos 90 degrees = 0."
 },
 "tdl-count": {
  "claim": "a constructed TDL model can be called",
  "tightened": [
   "C143_call_partial"
  ],
  "remark": "Survived at first: C87 to C89 assume a call that returned. C143_call_partial was added and the edit fails now."
 },
 "auto1-Cdl-cdlLoad-0": {
  "claim": "CDL models without LoS have LoS angles zero",
  "tightened": [
   "C91_angles"
  ],
  "remark": "Survived at first. C91_angles was extended and the edit fails now."
 },
 "auto1-Cdl-cdlShuffle-0": {
  "claim": "which distributions of a CDL model raise an attribute error",
  "tightened": [
   "C80_call_partial"
  ],
  "remark": "Survived at first. C80 was tightened and the edit fails now."
 },
 "auto1-DelayTables-cdlA-0": {
  "claim": "azimuths of arrival of model CDL-A",
  "tightened": [
   "C133_cdl_profiles"
  ],
  "remark": "Survived at first: C133 compared departure and zenith of departure only. It was extended and the edit fails now."
 },
 "auto1-DelayTables-cdlC-1": {
  "claim": "azimuths of arrival of model CDL-C",
  "tightened": [
   "C133_cdl_profiles"
  ],
  "remark": "Survived at first, see auto1-DelayTables-cdlA-0."
 },
 "auto1-Rays-fdiv-0": {
  "claim": "none (unused definition)",
  "remark": "Survived: no definition used fdiv. It was removed from the model."
 },
 "auto1-Rays-fdiv-1": {
  "claim": "none (unused definition)",
  "remark": "Survived: no definition used fdiv. It was removed from the model."
 },
 "auto1-Channel-ChanState.init-0": {
  "claim": "none (equivalent program)",
  "remark": "The flag is set in the first call before it is read."
 },
 "auto1-Cir-step12-1": {
  "claim": "none (equivalent program)",
  "remark": "With path loss disabled the value is chosen one step earlier, see stepPathloss, and the other branch is not taken."
 },
 "auto1-Cir-stepPathloss-0": {
  "claim": "none (equivalent program)",
  "remark": "With path loss disabled the value is replaced by zero in step 12."
 },
 "auto1-CorrMat-powNan-1": {
  "claim": "none (equivalent program)",
  "remark": "The argument is below one in modulus (asserted), and 0^0 is one whether it is taken as not-a-number and replaced or computed."
 },
 "auto1-Lsp-spatialCorrelation-0": {
  "claim": "none (equivalent program)",
  "remark": "The filter is zero or one, and division by zero gives zero in the model."
 },
 "auto1-Lsp-lspLogStd-1": {
  "claim": "none (equivalent program)",
  "remark": "Both branches hold the same value."
 },
 "auto1-O2i-o2iLowLoss-1": {
  "claim": "none (equivalent program)",
  "remark": "The mask is zero or one, and division by zero gives zero in the model."
 },
 "auto1-O2i-computeStalliteDoppler-0": {
  "claim": "none (equivalent program)",
  "remark": "The variable is computed and not used in the code either."
 },
 "auto1-O2i-computeStalliteDoppler-1": {
  "claim": "none (equivalent program)",
  "remark": "The Earth radius only enters a variable that is not used in the code either."
 },
 "auto1-Ofdm-truncInt-0": {
  "claim": "none (equivalent program)",
  "remark": "Floor and ceiling of zero agree."
 },
 "auto1-Ofdm-truncInt-1": {
  "claim": "none (equivalent program)",
  "remark": "Only whole numbers are truncated, for which floor and ceiling agree."
 },
 "tdl-times": {
  "claim": "none (equivalent program)",
  "remark": "Axes of size one are broadcast either way."
 },
 "auto1-Pathloss-gasYo-0": {
  "claim": "none (equivalent for accepted carrier frequencies)",
  "remark": "The branch belongs to frequencies above 66 GHz; the constructor accepts at most 40 GHz."
 },
 "shp-spatial-pair": {
  "claim": "none (equivalent program)",
  "remark": "Both axes have size one."
 },
 "shp-spatial-dist": {
  "claim": "none (equivalent program)",
  "remark": "Both axes have size one."
 },
 "auto1-Rays-rawDelays-0": {
  "claim": "none (equivalent program)",
  "remark": "The mask is zero or one, and division by zero gives zero in the model."
 },
 "auto1-Rays-RayDraws.InRange-0": {
  "claim": "none",
  "remark": "An assumption on the draws; the theorems hold under the weaker assumption as well."
 },
 "auto1-Rays-RayDraws.InRange-1": {
  "claim": "none",
  "remark": "An assumption on the draws that no theorem needed; the definition was removed afterwards."
 },
 "shp-rotation": {
  "claim": "none (equivalent program)",
  "remark": "The rotation matrix is square, so its transposition does not show in shapes."
 },
 "prec-drop-dis": {
  "claim": "displacements have the type of the precision",
  "tightened": [],
  "remark": "Survives because the observable behaviour is the same: the default element type of a draw is float32, which is the type of single precision, and in double precision the function raises for all arguments anyway (C137_double, utils.py 584)."
 },
 "rls-order-sum": {
  "claim": "none, a control: product and sum with exchanged operands",
  "tightened": [],
  "remark": "The claim stays true; the proof fails because it follows the order of the operands."
 },
 "prec-op": {
  "claim": "an integer tensor meets no Python float, on either side",
  "tightened": [
   "C158_sides"
  ],
  "remark": "Survived at first: the modelled functions have the tensor on the left only. C158_sides was added and the edit fails now."
 },
 "con-inner-default": {
  "claim": "control: the default of the scenario is never used by the channel models",
  "tightened": [],
  "remark": "Expected to survive: the channel models always pass the argument, so no claim about them changes."
 },
 "sim-ori": {
  "claim": "control: with probability one all orientations are numbers, so the branch is not taken",
  "tightened": [],
  "remark": "Expected to survive: the claims are about outcomes with probability one, where the branch is not taken."
 },
 "pcir-array-rxori": {
  "claim": "control: no type is accepted that was refused",
  "tightened": [],
  "remark": "Survives: another operation of the same call meets the same tensor (the field of the receiver has its orientation), so the call raises for exactly the same types and C179_single_partial, which says for which types it works, is unchanged."
 },
 "pcir-doppler-t": {
  "claim": "control: no type is accepted that was refused",
  "tightened": [],
  "remark": "Survives: another operation of the same call meets the same tensor (the sample times also meet the satellite speed or have the type of the precision by construction), so the call raises for exactly the same types and C179_single_partial, which says for which types it works, is unchanged."
 },
 "pcir-field-rx": {
  "claim": "control: no type is accepted that was refused",
  "tightened": [],
  "remark": "Survives: another operation of the same call meets the same tensor (arrival and departure angles have one type, and the array offsets use the arrival angles), so the call raises for exactly the same types and C179_single_partial, which says for which types it works, is unchanged."
 },
 "ins-newline": {
  "claim": "A CRLF is read as one line end",
  "tightened": [
   "C81_windows"
  ],
  "remark": "Survived: C81 spoke only of files whose lines end in a bare newline. C81_windows now states the edit for files with Windows line ends; rerun as ins-newline-2, which is killed."
 },
 "get-d3out": {
  "claim": "distance_3d_out is the outdoor part",
  "tightened": [
   "C127_slant"
  ],
  "remark": "Survived: C127 only said that the attribute can be read. C127_slant now states how the slant distance is divided; rerun as get-d3out-2, which is killed."
 }
}